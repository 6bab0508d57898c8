import Verif.Model.FullPath
import Verif.Spec.FullPath
import Mathlib.Tactic.SplitIfs
import Mathlib.Tactic.Tauto
/-!
# C189: `common.fullpath`, `common.fullpathjoin`
-/
namespace Pwtools.FullPath
open WriteLmp Spec

theorem fp_split_ne_nil (p : Text) : split p ≠ [] := by
  cases p with
  | nil => simp [split]
  | cons c t =>
    simp only [split]
    split_ifs
    · simp
    · cases split t <;> simp

theorem fp_split_append (a b : Text) : split (a ++ '/' :: b) = split a ++ split b := by
  induction a with
  | nil => simp [split]
  | cons c a ih =>
    simp only [List.cons_append, split, ih]
    split_ifs
    · simp
    · rcases h : split a with _ | ⟨x, xs⟩
      · exact absurd h (fp_split_ne_nil a)
      · simp

theorem fp_split_single (a : Text) (h : '/' ∉ a) : split a = [a] := by
  induction a with
  | nil => rfl
  | cons c a ih =>
    have hc : c ≠ '/' := fun e => h (by simp [e])
    simp only [split, if_neg hc, ih (fun e => h (List.mem_cons_of_mem _ e))]

theorem fp_split_join (l : List Text) (hl : l ≠ []) (h : ∀ c ∈ l, '/' ∉ c) : split (joinSep ['/'] l) = l := by
  induction l with
  | nil => exact absurd rfl hl
  | cons c l ih =>
    cases l with
    | nil => exact fp_split_single c (h c (by simp))
    | cons d l =>
      have e : joinSep ['/'] (c :: d :: l) = c ++ '/' :: joinSep ['/'] (d :: l) := by simp [joinSep]
      rw [e, fp_split_append, fp_split_single c (h c (by simp)),
        ih (by simp) (fun x hx => h x (List.mem_cons_of_mem _ hx))]
      rfl

theorem fp_join_split (p : Text) : joinSep ['/'] (split p) = p := by
  induction p with
  | nil => rfl
  | cons c t ih =>
    simp only [split]
    rcases h : split t with _ | ⟨x, xs⟩
    · exact absurd h (fp_split_ne_nil t)
    · rw [h] at ih
      split_ifs with hc
      · rw [hc, ← ih]; simp [joinSep]
      · rw [← ih]; cases xs <;> simp [joinSep]

theorem fp_split_noslash (p : Text) : ∀ c ∈ split p, '/' ∉ c := by
  induction p with
  | nil => simp [split]
  | cons c t ih =>
    simp only [split]
    split_ifs with hc
    · intro x hx
      rcases List.mem_cons.1 hx with rfl | hx
      · simp
      · exact ih x hx
    · rcases h : split t with _ | ⟨y, ys⟩
      · exact absurd h (fp_split_ne_nil t)
      · rw [h] at ih
        intro x hx
        rcases List.mem_cons.1 hx with rfl | hx
        · intro hm
          rcases List.mem_cons.1 hm with e | hm
          · exact hc e.symm
          · exact ih y (by simp) hm
        · exact ih x (List.mem_cons_of_mem _ hx)

theorem pathNames_iff (dir : List Text) (p : Text) (place : List Text) :
    PathNames dir p place ↔ goPath (if p.head? = some '/' then [] else dir) (split p) = place := by
  constructor
  · rintro ⟨l, h1, h2, h3, h4⟩
    rw [h3, fp_split_join l h1 h2, ← h3]; exact h4
  · intro h
    exact ⟨split p, fp_split_ne_nil p, fp_split_noslash p, (fp_join_split p).symm, h⟩

theorem goPath_append (dir l r : List Text) : goPath dir (l ++ r) = goPath (goPath dir l) r := by
  induction l generalizing dir with
  | nil => rfl
  | cons c l ih => simp only [List.cons_append, goPath]; split_ifs <;> exact ih _

/-- A name of a file or directory. -/
def ProperName (c : Text) : Prop := c ≠ [] ∧ c ≠ ".".toList ∧ c ≠ "..".toList ∧ '/' ∉ c

theorem goPath_proper (l dir : List Text) (hd : ∀ c ∈ dir, ProperName c) (hl : ∀ c ∈ l, '/' ∉ c) :
    ∀ c ∈ goPath dir l, ProperName c := by
  induction l generalizing dir with
  | nil => exact hd
  | cons c l ih =>
    have hl' : ∀ x ∈ l, '/' ∉ x := fun x hx => hl x (List.mem_cons_of_mem _ hx)
    simp only [goPath]
    split_ifs with h1 h2
    · exact ih dir hd hl'
    · exact ih _ (fun x hx => hd x (List.mem_of_mem_dropLast hx)) hl'
    · refine ih _ (fun x hx => ?_) hl'
      rcases List.mem_append.1 hx with hx | hx
      · exact hd x hx
      · rw [List.mem_singleton.1 hx]
        exact ⟨fun e => h1 (Or.inl e), fun e => h1 (Or.inr e), h2, hl c (by simp)⟩

theorem goPath_id (l dir : List Text) (hl : ∀ c ∈ l, ProperName c) : goPath dir l = dir ++ l := by
  induction l generalizing dir with
  | nil => simp [goPath]
  | cons c l ih =>
    obtain ⟨h1, h2, h3, _⟩ := hl c (by simp)
    simp only [goPath]
    rw [if_neg (by tauto), if_neg h3, ih _ (fun x hx => hl x (List.mem_cons_of_mem _ hx))]
    simp

theorem foldl_norm (l acc : List Text) (h : ['.', '.'] ∉ acc) : l.foldl (normStep true) acc = goPath acc l := by
  induction l generalizing acc with
  | nil => rfl
  | cons c l ih =>
    simp only [List.foldl_cons, goPath, normStep]
    have hlast : acc.getLast? ≠ some ['.', '.'] := fun e => h (List.mem_of_getLast? e)
    by_cases h1 : c = [] ∨ c = ['.']
    · have h1' : c = [] ∨ c = ".".toList := by simpa using h1
      simp only [if_pos h1, if_pos h1']; exact ih acc h
    · have h1' : ¬ (c = [] ∨ c = ".".toList) := by simpa using h1
      simp only [if_neg h1, if_neg h1']
      by_cases h2 : c = ['.', '.']
      · have h2' : c = "..".toList := by simpa using h2
        have h3 : ¬ (c ≠ ['.', '.'] ∨ (true = false ∧ acc = []) ∨ acc.getLast? = some ['.', '.']) := by
          rintro (h | ⟨h, _⟩ | h)
          · exact h h2
          · cases h
          · exact hlast h
        simp only [if_neg h3, if_pos h2']
        exact ih _ (fun e => h (List.mem_of_mem_dropLast e))
      · have h2' : ¬ c = "..".toList := by simpa using h2
        have h3 : c ≠ ['.', '.'] ∨ (true = false ∧ acc = []) ∨ acc.getLast? = some ['.', '.'] := Or.inl h2
        simp only [if_pos h3, if_neg h2']
        exact ih _ (by simp only [List.mem_append, List.mem_singleton, not_or]; exact ⟨h, fun e => h2 e.symm⟩)

theorem slashes_cases (p : Text) (h : p.head? = some '/') :
    (TwoSlashes p → initialSlashes p = 2) ∧ (¬ TwoSlashes p → initialSlashes p = 1) := by
  unfold initialSlashes TwoSlashes
  rcases p with _ | ⟨a, _ | ⟨b, _ | ⟨c, t⟩⟩⟩
  · simp at h
  · simp_all
  · simp only [List.head?_cons, Option.some.injEq] at h
    subst h
    by_cases hb : b = '/' <;> simp [hb]
  · simp only [List.head?_cons, Option.some.injEq] at h
    subst h
    by_cases hb : b = '/' <;> by_cases hc : c = '/' <;> simp [hb, hc]

theorem normpath_abs (p : Text) (h : p.head? = some '/') :
    normpath p = List.replicate (initialSlashes p) '/' ++ joinSep ['/'] (goPath [] (split p)) := by
  have hk : initialSlashes p ≠ 0 := by
    by_cases ht : TwoSlashes p
    · rw [(slashes_cases p h).1 ht]; simp
    · rw [(slashes_cases p h).2 ht]; simp
  have hp : p ≠ [] := by rintro rfl; simp at h
  unfold normpath
  rw [if_neg hp]
  dsimp only
  rw [show decide (initialSlashes p ≠ 0) = true by simp [hk], foldl_norm _ _ (by simp), if_neg]
  simp [hk]

theorem join_head (cwd p : Text) (hc : cwd.head? = some '/') : (join cwd p).head? = some '/' := by
  rcases cwd with _ | ⟨c, t⟩
  · simp at hc
  · unfold join
    split_ifs with h1 h2
    · exact h1
    · simpa using hc
    · simpa using hc

/-- The path which `os.path.abspath` normalises starts with a slash. -/
theorem abs_head (cwd p : Text) (hc : cwd.head? = some '/') :
    (if p.head? = some '/' then p else join cwd p).head? = some '/' := by
  split_ifs with h
  · exact h
  · exact join_head cwd p hc

theorem goPath_join (dir : List Text) (a b : Text) (ha : a ≠ []) (hb : b.head? ≠ some '/') :
    goPath dir (split (join a b)) = goPath (goPath dir (split a)) (split b) := by
  unfold join
  rw [if_neg hb]
  split_ifs with h
  · have h' : a.getLast? = some '/' := by tauto
    obtain ⟨a', rfl⟩ := List.getLast?_eq_some_iff.1 h'
    rw [List.append_assoc, List.singleton_append, fp_split_append, fp_split_append, goPath_append, goPath_append]
    simp [split, goPath]
  · rw [fp_split_append, goPath_append]

/-- What a normalised text names. -/
theorem names_text (k : Nat) (hk : k ≠ 0) (G : List Text) (hG : ∀ c ∈ G, ProperName c) (dir : List Text) :
    PathNames dir (List.replicate k '/' ++ joinSep ['/'] G) G := by
  rw [pathNames_iff]
  have hh : (List.replicate k '/' ++ joinSep ['/'] G).head? = some '/' := by
    cases k with
    | zero => exact absurd rfl hk
    | succ k => simp [List.replicate_succ]
  rw [if_pos hh]
  clear hh hk
  induction k with
  | zero =>
    cases G with
    | nil => simp [joinSep, split, goPath]
    | cons g G =>
      rw [List.replicate_zero, List.nil_append, fp_split_join _ (by simp) (fun c hc => (hG c hc).2.2.2), goPath_id _ _ hG]
      simp
  | succ k ih =>
    rw [List.replicate_succ, List.cons_append]
    simpa [split, goPath] using ih

theorem text_head (G : List Text) (hG : ∀ c ∈ G, ProperName c) : (joinSep ['/'] G).head? ≠ some '/' := by
  rcases G with _ | ⟨g, _ | ⟨g', G⟩⟩
  · simp [joinSep]
  · obtain ⟨h1, _, _, h4⟩ := hG g (by simp)
    rcases g with _ | ⟨c, g⟩
    · exact absurd rfl h1
    · simp only [joinSep, List.head?_cons, ne_eq, Option.some.injEq]
      intro e; exact h4 (by simp [e])
  · obtain ⟨h1, _, _, h4⟩ := hG g (by simp)
    rcases g with _ | ⟨c, g⟩
    · exact absurd rfl h1
    · simp only [joinSep, List.cons_append, List.head?_cons, ne_eq, Option.some.injEq]
      intro e; exact h4 (by simp [e])

/-- **C189** (form). Whatever the argument, the result is the canonical text of some place (names which are not empty, not `.`, not `..`,
after single slashes), at most with a second slash at the start. -/
theorem C189_canonical (cwd : Text) (home : Text → Option Text) (s : Text) (hc : cwd.head? = some '/') :
    ∃ place, (∀ c ∈ place, c ≠ [] ∧ c ≠ ".".toList ∧ c ≠ "..".toList ∧ '/' ∉ c) ∧
      (fullpath cwd home s = placeText place ∨ fullpath cwd home s = '/' :: placeText place) := by
  have hh := abs_head cwd (expanduser home s) hc
  refine ⟨_, goPath_proper (split (if (expanduser home s).head? = some '/' then expanduser home s else join cwd (expanduser home s))) []
    (by simp) (fp_split_noslash _), ?_⟩
  unfold fullpath abspath
  rw [normpath_abs _ hh]
  by_cases ht : TwoSlashes (if (expanduser home s).head? = some '/' then expanduser home s else join cwd (expanduser home s))
  · right; rw [(slashes_cases _ hh).1 ht]; rfl
  · left; rw [(slashes_cases _ hh).2 ht]; rfl

theorem abspath_names (cwd p : Text) (hc : cwd.head? = some '/') (D0 D : List Text) (h0 : PathNames [] cwd D0)
    (h : PathNames D0 p D) (dir : List Text) : PathNames dir (abspath cwd p) D ∧
      (¬ TwoSlashes (if p.head? = some '/' then p else join cwd p) → abspath cwd p = placeText D) := by
  have hh := abs_head cwd p hc
  rw [pathNames_iff, if_pos hc] at h0
  rw [pathNames_iff] at h
  have hG : goPath [] (split (if p.head? = some '/' then p else join cwd p)) = D := by
    split_ifs with hp
    · rw [if_pos hp] at h; exact h
    · rw [if_neg hp] at h
      rw [goPath_join _ _ _ (by rintro rfl; simp at hc) hp, h0, h]
  have hpr := goPath_proper (split (if p.head? = some '/' then p else join cwd p)) [] (by simp) (fp_split_noslash _)
  rw [hG] at hpr
  unfold abspath
  rw [normpath_abs _ hh, hG]
  constructor
  · refine names_text _ ?_ D hpr dir
    by_cases ht : TwoSlashes (if p.head? = some '/' then p else join cwd p)
    · rw [(slashes_cases _ hh).1 ht]; simp
    · rw [(slashes_cases _ hh).2 ht]; simp
  · intro ht
    rw [(slashes_cases _ hh).2 ht]; rfl

theorem expanduser_id (home : Text → Option Text) (s : Text)
    (hs : ∀ t, s = '~' :: t → home (t.takeWhile (fun c => c != '/')) = none) : expanduser home s = s := by
  unfold expanduser
  split
  · rename_i t
    simp only [hs t rfl]
  · rfl

/-- **C189** (meaning). If the argument does not start with `~`, or with `~` and the name of an unknown user, the result, used in any
directory `dir`, names the place which the argument names in the current directory. -/
theorem C189_names (cwd : Text) (home : Text → Option Text) (s : Text) (hc : cwd.head? = some '/')
    (hs : ∀ t, s = '~' :: t → home (t.takeWhile (fun c => c != '/')) = none)
    (D0 D : List Text) (h0 : PathNames [] cwd D0) (h : PathNames D0 s D) (dir : List Text) :
    PathNames dir (fullpath cwd home s) D := by
  unfold fullpath
  rw [expanduser_id home s hs]
  exact (abspath_names cwd s hc D0 D h0 h dir).1

theorem join_twoSlashes (cwd s : Text) (hc : cwd.head? = some '/') (hs : s.head? ≠ some '/') (h : ¬ TwoSlashes cwd) :
    ¬ TwoSlashes (join cwd s) := by
  unfold TwoSlashes at h ⊢
  rintro ⟨t, e, ht⟩
  unfold join at e
  rw [if_neg hs] at e
  rcases cwd with _ | ⟨a, _ | ⟨b, cwd⟩⟩
  · simp at hc
  · simp only [List.head?_cons, Option.some.injEq] at hc
    subst hc
    simp at e
    rw [e] at hs; simp at hs
  · simp only [List.head?_cons, Option.some.injEq] at hc
    subst hc
    rcases cwd with _ | ⟨c, cwd⟩
    · by_cases hb : b = '/'
      · exact h ⟨[], by rw [hb], by simp⟩
      · split_ifs at e <;> simp [hb] at e
    · have e' : ∃ u, '/' :: b :: c :: (cwd ++ u) = '/' :: '/' :: t := by
        by_cases hd : ('/' :: b :: c :: cwd = []) ∨ ('/' :: b :: c :: cwd).getLast? = some '/'
        · rw [if_pos hd] at e; exact ⟨s, e⟩
        · rw [if_neg hd] at e; exact ⟨'/' :: s, e⟩
      obtain ⟨u, e⟩ := e'
      simp only [List.cons.injEq, true_and] at e
      obtain ⟨hb, e⟩ := e
      refine h ⟨c :: cwd, by rw [hb], ?_⟩
      rw [← e] at ht; simpa using ht

/-- **C189** (one text per place). If neither the argument nor the current directory starts with exactly two slashes, the result is the
canonical text of the place. So all names of one place give the same result. -/
theorem C189_unique (cwd : Text) (home : Text → Option Text) (s : Text) (hc : cwd.head? = some '/')
    (hs : ∀ t, s = '~' :: t → home (t.takeWhile (fun c => c != '/')) = none)
    (D0 D : List Text) (h0 : PathNames [] cwd D0) (h : PathNames D0 s D)
    (h2 : ¬ TwoSlashes cwd) (h3 : ¬ TwoSlashes s) : fullpath cwd home s = placeText D := by
  unfold fullpath
  rw [expanduser_id home s hs]
  refine (abspath_names cwd s hc D0 D h0 h []).2 ?_
  split_ifs with hp
  · exact h3
  · exact join_twoSlashes cwd s hc hp h2

/-- **C189** (the exception). With two slashes at the start one place has two texts. -/
theorem C189_two_slashes (cwd : Text) (home : Text → Option Text) :
    PathNames [] "//a".toList ["a".toList] ∧ PathNames [] "/a".toList ["a".toList] ∧
    fullpath cwd home "//a".toList = "//a".toList ∧ fullpath cwd home "/a".toList = "/a".toList := by
  refine ⟨?_, ?_, ?_, ?_⟩
  · rw [pathNames_iff]; decide
  · rw [pathNames_iff]; decide
  · show normpath "//a".toList = "//a".toList
    decide
  · show normpath "/a".toList = "/a".toList
    decide

/-- **C189** (again). The result is not changed by another call, in any directory and for any home directories. -/
theorem C189_idempotent (cwd cwd' : Text) (home home' : Text → Option Text) (s : Text) (hc : cwd.head? = some '/') :
    fullpath cwd' home' (fullpath cwd home s) = fullpath cwd home s := by
  obtain ⟨G, hG, hr⟩ := C189_canonical cwd home s hc
  have key : ∀ k, (k = 1 ∨ k = 2) → fullpath cwd' home' (List.replicate k '/' ++ joinSep ['/'] G) =
      List.replicate k '/' ++ joinSep ['/'] G := by
    intro k hk
    have hh : (List.replicate k '/' ++ joinSep ['/'] G).head? = some '/' := by
      rcases hk with rfl | rfl <;> simp [List.replicate]
    have hex : expanduser home' (List.replicate k '/' ++ joinSep ['/'] G) = List.replicate k '/' ++ joinSep ['/'] G := by
      refine expanduser_id _ _ (fun t e => ?_)
      rw [e] at hh; simp at hh
    have hn := names_text k (by omega) G hG []
    rw [pathNames_iff, if_pos hh] at hn
    unfold fullpath abspath
    rw [hex, if_pos hh, normpath_abs _ hh, hn]
    congr 2
    have hG' := text_head G hG
    rcases hk with rfl | rfl
    · refine (slashes_cases _ hh).2 ?_
      rintro ⟨t, e, _⟩
      simp only [List.replicate, List.cons_append, List.nil_append, List.cons.injEq, true_and] at e
      rw [e] at hG'; simp at hG'
    · exact (slashes_cases _ hh).1 ⟨joinSep ['/'] G, rfl, hG'⟩
  rcases hr with hr | hr
  · rw [hr]; exact key 1 (Or.inl rfl)
  · rw [hr]; exact key 2 (Or.inr rfl)

theorem rstrip_decomp (h : Text) : ∃ m, h = (h.reverse.dropWhile (fun c => c == '/')).reverse ++ List.replicate m '/' := by
  refine ⟨(h.reverse.takeWhile (fun c => c == '/')).length, ?_⟩
  have e : h.reverse.takeWhile (fun c => c == '/') = List.replicate (h.reverse.takeWhile (fun c => c == '/')).length '/' := by
    refine List.eq_replicate_iff.2 ⟨rfl, fun b hb => ?_⟩
    have := List.all_takeWhile (p := fun c => c == '/') (l := h.reverse)
    simpa using List.all_eq_true.1 this b hb
  have := congrArg List.reverse (List.takeWhile_append_dropWhile (p := fun c => c == '/') (l := h.reverse))
  rw [List.reverse_append, List.reverse_reverse, e, List.reverse_replicate] at this
  exact this.symm

theorem goPath_slashes (dir : List Text) (r : Text) (m : Nat) :
    goPath dir (split (r ++ List.replicate m '/')) = goPath dir (split r) := by
  induction m with
  | zero => simp
  | succ m ih =>
    rw [List.replicate_succ', ← List.append_assoc, fp_split_append, goPath_append, ih]
    simp [split, goPath]

/-- **C189** (home). `~` is the home directory, and `~/x` what `x` is there, in every current directory. -/
theorem C189_home (cwd : Text) (home : Text → Option Text) (h : Text) (hc : cwd.head? = some '/')
    (hh : home [] = some h) (ha : h.head? = some '/') (H : List Text) (hH : PathNames [] h H) (dir : List Text) :
    PathNames dir (fullpath cwd home "~".toList) H ∧
    ∀ (x : Text) (D : List Text), x.head? ≠ some '/' → PathNames H x D →
      PathNames dir (fullpath cwd home ('~' :: '/' :: x)) D := by
  obtain ⟨m, hm⟩ := rstrip_decomp h
  rw [pathNames_iff, if_pos ha] at hH
  generalize hr : (h.reverse.dropWhile (fun c => c == '/')).reverse = r at hm
  have hgo : goPath [] (split r) = H := by rw [hm, goPath_slashes] at hH; exact hH
  have hrh : r ≠ [] → r.head? = some '/' := by
    intro hne
    rcases r with _ | ⟨c, r⟩
    · exact absurd rfl hne
    · rw [hm] at ha; simpa using ha
  have h0 : PathNames [] cwd (goPath [] (split cwd)) := by rw [pathNames_iff, if_pos hc]
  constructor
  · have e : expanduser home "~".toList = if r = [] then ['/'] else r := by
      simp [expanduser, hh, hr]
    unfold fullpath
    rw [e]
    refine (abspath_names cwd _ hc _ H h0 ?_ dir).1
    rw [pathNames_iff]
    split_ifs with h1 h2 h3
    · rw [h1] at hgo; rw [← hgo]; decide
    · simp at h2
    · exact hgo
    · exact absurd (hrh h1) h3
  · intro x D hx hD
    have e : expanduser home ('~' :: '/' :: x) = r ++ '/' :: x := by
      simp [expanduser, hh, hr]
    unfold fullpath
    rw [e]
    refine (abspath_names cwd _ hc _ D h0 ?_ dir).1
    rw [pathNames_iff, if_neg hx] at hD
    have hd : (r ++ '/' :: x).head? = some '/' := by
      rcases r with _ | ⟨c, r⟩
      · rfl
      · simpa using hrh (by simp)
    rw [pathNames_iff, if_pos hd, fp_split_append, goPath_append, hgo, hD]

/-- **C189** (two names). `fullpathjoin(a, b)` is what `b` names in the directory `a`; a `b` which starts with a slash stands for itself. -/
theorem C189_join (cwd : Text) (home : Text → Option Text) (a b : Text) (hc : cwd.head? = some '/')
    (ha : a ≠ []) (ht : a.head? ≠ some '~') (hb : b.head? ≠ some '~') (D0 D1 D : List Text) (h0 : PathNames [] cwd D0)
    (h1 : PathNames D0 a D1) (h : PathNames D1 b D) (dir : List Text) :
    PathNames dir (fullpathjoin cwd home a b) D := by
  unfold fullpathjoin
  have hj : (join a b).head? ≠ some '~' := by
    unfold join
    rcases a with _ | ⟨c, a⟩
    · exact absurd rfl ha
    · split_ifs
      · exact hb
      · simpa using ht
      · simpa using ht
  refine C189_names cwd home _ hc (fun t e => absurd (by rw [e]; rfl) hj) D0 D h0 ?_ dir
  rw [pathNames_iff] at h1 h ⊢
  by_cases hbs : b.head? = some '/'
  · have e : join a b = b := by unfold join; rw [if_pos hbs]
    rw [e, if_pos hbs]; rw [if_pos hbs] at h; exact h
  · rw [if_neg hbs] at h
    have e : (join a b).head? = a.head? := by
      rcases a with _ | ⟨c, a⟩
      · exact absurd rfl ha
      · unfold join; rw [if_neg hbs]; split_ifs <;> rfl
    rw [e, goPath_join _ _ _ ha hbs, h1, h]

/-- Non-vacuity: a relative name with `..`, `.` and double slashes. -/
example : PathNames [] "/home/u".toList ["home".toList, "u".toList] ∧
    PathNames ["home".toList, "u".toList] "../v//./x/".toList ["home".toList, "v".toList, "x".toList] ∧
    fullpath "/home/u".toList (fun _ => none) "../v//./x/".toList = "/home/v/x".toList := by
  refine ⟨?_, ?_, by decide⟩
  · rw [pathNames_iff]; decide
  · rw [pathNames_iff]; decide

/-- Non-vacuity: home directories. -/
example : fullpath "/tmp".toList (fun n => if n = [] then some "/home/u/".toList else none) "~/x".toList = "/home/u/x".toList ∧
    fullpath "/tmp".toList (fun n => if n = [] then some "/home/u/".toList else none) "~w/x".toList = "/tmp/~w/x".toList := by decide

end Pwtools.FullPath
