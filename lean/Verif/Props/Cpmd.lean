import Verif.Model.Cpmd
import Verif.Spec.Cpmd
import Verif.Props.Cp2k
import Verif.Props.Lammps
/-!
# The CPMD parser (C91)
-/
namespace Pwtools.Cpmd
open Pwtools.Gr Pwtools.Spec Pwtools.PwOut Pwtools.Cp2k Pwtools.Lmp

variable {K : Type} {num : Text → Option K}

/-! ## ENERGIES -/

theorem loadtxt_wide {file : List Text} {rows : List (List K)} (h : IsTable num file rows) (m : Nat) (hm : 2 ≤ m) (hr : ∀ r ∈ rows, r.length = m)
    (h1 : rows ≠ []) : loadtxt num file = .ok rows ∧ lastDim rows = m ∧ is2d rows = decide (2 ≤ rows.length) := by
  refine ⟨loadtxt_eq h m (by omega) hr, ?_, is2d_eq rows m hr hm⟩
  obtain ⟨r, rs, rfl⟩ := List.exists_cons_of_ne_nil h1
  have := hr r (by simp)
  simp only [lastDim, List.headD_cons, this, List.length_cons]
  rw [if_neg (by omega), if_neg (by omega)]

theorem lookup_cols (junk : K) (rows : List (List K)) (order : List String) (n : Nat) (key : String) :
    ((order.zip (List.range' n order.length)).map fun p => (p.1, rows.map fun r => r.getD p.2 junk)).lookup key =
      (((order.zip (List.range' n order.length)).lookup key).map fun i => rows.map fun r => r.getD i junk) := by
  induction order generalizing n with
  | nil => rfl
  | cons o order ih =>
    simp only [List.length_cons, List.range'_succ, List.zip_cons_cons, List.map_cons, List.lookup_cons]
    split
    · rfl
    · exact ih _

theorem energy_eq (junk : K) (file : List Text) (rows : List (List K)) (order : List String) (m : Nat) (h : IsTable num file rows)
    (hm : 2 ≤ m) (hr : ∀ r ∈ rows, r.length = m) (h2 : 2 ≤ rows.length) (ho : energiesOrder m = some order) (key : String) :
    energy junk num file key = .ok (((order.zip (List.range order.length)).lookup key).map fun i => rows.map fun r => r.getD i junk) := by
  have hne : rows ≠ [] := by rintro rfl; simp at h2
  obtain ⟨h3, h4, h5⟩ := loadtxt_wide h m hm hr hne
  unfold energy energiesFile
  simp only [h3, h4, ho, h5, decide_eq_true h2, if_true]
  congr 1
  have := lookup_cols junk rows order 0 key
  rw [← List.range_eq_range'] at this
  exact this

/-- **C91**: energies and temperature are the columns of the file `ENERGIES` in the order which the documentation gives for the kind of the run; quantities
without a column are `None`; the conserved energy is `EHAM`, or `EKS` without this column. -/
theorem C91_energies_partial (junk : K) (cols : List String) (hc : EnergyColumns cols) (file : List Text) (rows : List (List K)) (h : IsTable num file rows)
    (hr : ∀ r ∈ rows, r.length = cols.length) (h2 : 2 ≤ rows.length) :
    let col := fun name => rows.map fun r => namedCol junk cols r name
    let opt := fun name => if name ∈ cols then some (col name) else none
    temperature junk num file = .ok (some (col "TEMPP")) ∧ etot junk num file = .ok (some (col "EKS")) ∧
    ekin junk num file = .ok (some (col "ECLASSIC")) ∧ ekinElec junk num file = .ok (opt "EKINC") ∧ ekinCell junk num file = .ok (opt "EKINH") ∧
    econst junk num file = .ok (some (if "EHAM" ∈ cols then col "EHAM" else col "EKS")) := by
  have key : ∀ (name : String) (i : Nat), (∀ r : List K, r.length = cols.length → r.getD i junk = namedCol junk cols r name) →
      (rows.map fun r => r.getD i junk) = rows.map fun r => namedCol junk cols r name := by
    intro name i hi
    exact List.map_congr_left fun r hm => hi r (hr r hm)
  cases hc with
  | parrinelloRahman =>
    have e := energy_eq junk file rows _ 9 h (by omega) hr h2 rfl
    have nm : ∀ r : List K, r.length = 9 → ∃ a b c d e f g h i, r = [a, b, c, d, e, f, g, h, i] := by
      intro r hl
      match r, hl with
      | [a, b, c, d, e, f, g, h, i], _ => exact ⟨a, b, c, d, e, f, g, h, i, rfl⟩
    have k : ∀ (name : String) (i : Nat), (∀ a b c d e f g h i' : K, ([a, b, c, d, e, f, g, h, i'] : List K).getD i junk =
        namedCol junk ["NFI", "EKINC", "EKINH", "TEMPP", "EKS", "ECLASSIC", "EHAM", "DIS", "TCPU"] [a, b, c, d, e, f, g, h, i'] name) →
        (rows.map fun r => r.getD i junk) =
          rows.map fun r => namedCol junk ["NFI", "EKINC", "EKINH", "TEMPP", "EKS", "ECLASSIC", "EHAM", "DIS", "TCPU"] r name := by
      intro name i hi
      refine key name i fun r hl => ?_
      obtain ⟨a, b, c, d, e, f, g, h, i, rfl⟩ := nm r hl
      exact hi ..
    refine ⟨?_, ?_, ?_, ?_, ?_, ?_⟩
    · exact (e "tempp").trans (congrArg (fun x => Except.ok (some x)) (k "TEMPP" 3 fun _ _ _ _ _ _ _ _ _ => rfl))
    · exact (e "eks").trans (congrArg (fun x => Except.ok (some x)) (k "EKS" 4 fun _ _ _ _ _ _ _ _ _ => rfl))
    · exact (e "eclassic").trans (congrArg (fun x => Except.ok (some x)) (k "ECLASSIC" 5 fun _ _ _ _ _ _ _ _ _ => rfl))
    · exact (e "ekinc").trans (congrArg (fun x => Except.ok (some x)) (k "EKINC" 1 fun _ _ _ _ _ _ _ _ _ => rfl))
    · exact (e "ekinh").trans (congrArg (fun x => Except.ok (some x)) (k "EKINH" 2 fun _ _ _ _ _ _ _ _ _ => rfl))
    · unfold econst
      rw [e "eham"]
      exact congrArg (fun x => Except.ok (some x)) (k "EHAM" 6 fun _ _ _ _ _ _ _ _ _ => rfl)
  | cp =>
    have e := energy_eq junk file rows _ 8 h (by omega) hr h2 rfl
    have k : ∀ (name : String) (i : Nat), (∀ a b c d e f g h : K, ([a, b, c, d, e, f, g, h] : List K).getD i junk =
        namedCol junk ["NFI", "EKINC", "TEMPP", "EKS", "ECLASSIC", "EHAM", "DIS", "TCPU"] [a, b, c, d, e, f, g, h] name) →
        (rows.map fun r => r.getD i junk) =
          rows.map fun r => namedCol junk ["NFI", "EKINC", "TEMPP", "EKS", "ECLASSIC", "EHAM", "DIS", "TCPU"] r name := by
      intro name i hi
      refine key name i fun r hl => ?_
      match r, hl with
      | [a, b, c, d, e, f, g, h], _ => exact hi ..
    refine ⟨?_, ?_, ?_, ?_, ?_, ?_⟩
    · exact (e "tempp").trans (congrArg (fun x => Except.ok (some x)) (k "TEMPP" 2 fun _ _ _ _ _ _ _ _ => rfl))
    · exact (e "eks").trans (congrArg (fun x => Except.ok (some x)) (k "EKS" 3 fun _ _ _ _ _ _ _ _ => rfl))
    · exact (e "eclassic").trans (congrArg (fun x => Except.ok (some x)) (k "ECLASSIC" 4 fun _ _ _ _ _ _ _ _ => rfl))
    · exact (e "ekinc").trans (congrArg (fun x => Except.ok (some x)) (k "EKINC" 1 fun _ _ _ _ _ _ _ _ => rfl))
    · exact e "ekinh"
    · unfold econst
      rw [e "eham"]
      exact congrArg (fun x => Except.ok (some x)) (k "EHAM" 5 fun _ _ _ _ _ _ _ _ => rfl)
  | lanczos =>
    have e := energy_eq junk file rows _ 6 h (by omega) hr h2 rfl
    have k : ∀ (name : String) (i : Nat), (∀ a b c d e f : K, ([a, b, c, d, e, f] : List K).getD i junk =
        namedCol junk ["NFI", "TEMPP", "EKS", "ECLASSIC", "DIS", "TCPU"] [a, b, c, d, e, f] name) →
        (rows.map fun r => r.getD i junk) =
          rows.map fun r => namedCol junk ["NFI", "TEMPP", "EKS", "ECLASSIC", "DIS", "TCPU"] r name := by
      intro name i hi
      refine key name i fun r hl => ?_
      match r, hl with
      | [a, b, c, d, e, f], _ => exact hi ..
    refine ⟨?_, ?_, ?_, ?_, ?_, ?_⟩
    · exact (e "tempp").trans (congrArg (fun x => Except.ok (some x)) (k "TEMPP" 1 fun _ _ _ _ _ _ => rfl))
    · exact (e "eks").trans (congrArg (fun x => Except.ok (some x)) (k "EKS" 2 fun _ _ _ _ _ _ => rfl))
    · exact (e "eclassic").trans (congrArg (fun x => Except.ok (some x)) (k "ECLASSIC" 3 fun _ _ _ _ _ _ => rfl))
    · exact e "ekinc"
    · exact e "ekinh"
    · unfold econst
      rw [e "eham"]
      exact (e "eks").trans (congrArg (fun x => Except.ok (some x)) (k "EKS" 2 fun _ _ _ _ _ _ => rfl))

/-- **C91**: files with another number of columns are refused, not misread. -/
theorem C91_other_columns (junk : K) (file : List Text) (rows : List (List K)) (m : Nat) (h : IsTable num file rows) (hm : 2 ≤ m)
    (hr : ∀ r ∈ rows, r.length = m) (h1 : rows ≠ []) (hc : m ≠ 6 ∧ m ≠ 8 ∧ m ≠ 9) (key : String) :
    energy junk num file key = .error .columns := by
  obtain ⟨h3, h4, -⟩ := loadtxt_wide h m hm hr h1
  unfold energy energiesFile
  simp only [h3, h4, energiesOrder, hc.1, hc.2.1, hc.2.2, if_false]

/-- **C91**: what is missing: a file with a single row makes every getter raise `IndexError`. -/
theorem C91_single_row_counterexample (junk : K) (cols : List String) (hc : EnergyColumns cols) (file : List Text) (r : List K)
    (h : IsTable num file [r]) (hr : r.length = cols.length) (key : String) : energy junk num file key = .error (.py .index) := by
  have : ∃ order, energiesOrder cols.length = some order ∧ 2 ≤ cols.length := by
    cases hc <;> exact ⟨_, rfl, by decide⟩
  obtain ⟨order, ho, hm⟩ := this
  obtain ⟨h3, h4, h5⟩ := loadtxt_wide h cols.length hm (by simpa using hr) (by simp)
  unfold energy energiesFile
  simp only [h3, h4, ho, h5]
  simp

/-! ## trajectory -/

theorem cutMark_row (l : Text) (h : ¬ Has "<<<<".toList l) : cutMark l = l := by
  induction l with
  | nil => rfl
  | cons c l ih =>
    have h1 : ¬ Has "<<<<".toList l := fun ⟨a, b, hc⟩ => h ⟨c :: a, b, by simp [hc]⟩
    have h2 : "<<<<".toList.isPrefixOf (c :: l) = false := by
      by_contra hc
      simp only [Bool.not_eq_false, List.isPrefixOf_iff_prefix] at hc
      obtain ⟨t, ht⟩ := hc
      exact h ⟨[], t, by simpa using ht.symm⟩
    rw [cutMark, h2, ih h1]
    simp

theorem cutMark_mark (n : Nat) (t : Text) : splitWs (cutMark (List.replicate n ' ' ++ "<<<<".toList ++ t)) = [] := by
  induction n with
  | zero =>
    have : "<<<<".toList.isPrefixOf ("<<<<".toList ++ t) = true := List.isPrefixOf_iff_prefix.2 ⟨_, rfl⟩
    rw [List.replicate_zero, List.nil_append]
    have e : "<<<<".toList ++ t = '<' :: ("<<<".toList ++ t) := rfl
    rw [e] at this ⊢
    rw [cutMark, this]
    rfl
  | succ n ih =>
    rw [List.replicate_succ, List.cons_append, List.cons_append, cutMark]
    rw [show "<<<<".toList.isPrefixOf (' ' :: (List.replicate n ' ' ++ "<<<<".toList ++ t)) = false from rfl]
    unfold splitWs at ih ⊢
    rw [if_neg (by simp), splitWsAux, if_pos (by decide), if_pos rfl]
    exact ih

theorem traj_lines {file : List Text} {rows : List (List K)} (h : IsTrajFile num file rows) (hr : ∀ r ∈ rows, r ≠ []) :
    (file.filter fun l => !isInfix "<<<<".toList l).length = rows.length ∧
    List.Forall₂ (fun r v => r.map num = v.map some) ((file.map fun l => splitWs (cutMark l)).filter (· ≠ [])) rows ∧
    (rows ≠ [] → (file.take 20).all (fun l => splitWs l = [] || ((l.dropWhile isPySpace).head? = some '#')) = false) := by
  induction h with
  | nil => simp
  | @mark n t ls rows _ ih =>
    obtain ⟨i1, i2, i3⟩ := ih hr
    have hi : isInfix "<<<<".toList (List.replicate n ' ' ++ "<<<<".toList ++ t) = true := (has_iff _ _).2 ⟨_, _, rfl⟩
    refine ⟨?_, ?_, ?_⟩
    · rw [List.filter_cons, hi]
      simpa using i1
    · rw [List.map_cons, cutMark_mark, List.filter_cons]
      simpa using i2
    · intro _
      have hw : splitWs (List.replicate n ' ' ++ "<<<<".toList ++ t) ≠ [] ∧
          ((List.replicate n ' ' ++ "<<<<".toList ++ t).dropWhile isPySpace).head? = some '<' := by
        induction n with
        | zero =>
          constructor
          · unfold splitWs
            rw [List.replicate_zero, List.nil_append, splitWsAux_tok "<<<<".toList (by decide)]
            have : ∀ (l cur : Text), cur ≠ [] → splitWsAux cur l ≠ [] := by
              intro l
              induction l with
              | nil => intro cur h; simp [splitWsAux, h]
              | cons c l ih =>
                intro cur h
                simp only [splitWsAux]
                split
                · simp [h]
                · exact ih _ (by simp)
            exact this _ _ (by simp)
          · rfl
        | succ n ih =>
          have ih := ih ((has_iff _ _).2 ⟨_, _, rfl⟩)
          constructor
          · have := ih.1
            unfold splitWs at this ⊢
            rw [List.replicate_succ, List.cons_append, List.cons_append, splitWsAux, if_pos (by decide), if_pos rfl]
            exact this
          · rw [List.replicate_succ, List.cons_append, List.cons_append, List.dropWhile_cons, if_pos (by decide)]
            exact ih.2
      rw [List.take_succ_cons, List.all_cons, hw.2, decide_eq_false hw.1]
      simp
  | @row l v ls rows h1 hh h2 _ ih =>
    obtain ⟨i1, i2, i3⟩ := ih fun x hx => hr x (by simp [hx])
    have hne : splitWs l ≠ [] := by
      intro hc
      rw [hc] at h2
      exact hr v (by simp) (by simpa using h2.symm)
    refine ⟨?_, ?_, ?_⟩
    · rw [List.filter_cons, has_false h1]
      simpa using i1
    · rw [List.map_cons, cutMark_row l h1, List.filter_cons, if_pos (by simpa using hne)]
      exact List.Forall₂.cons h2 i2
    · intro _
      have : (l.dropWhile isPySpace).head? ≠ some '#' := by
        intro hc
        apply hh
        have : '#' ∈ l.dropWhile isPySpace := List.mem_of_head? hc
        exact (List.dropWhile_sublist _).subset this
      rw [List.take_succ_cons, List.all_cons]
      simp [hne, this]

theorem rows_length (ft : Bool) (a : AtomStep K) : (a.row ft).length = if ft then 10 else 7 := by
  cases ft <;> rfl

theorem is2d_rows (rows : List (List K)) (m : Nat) (hm : 2 ≤ m) (hr : ∀ r ∈ rows, r.length = m) : is2d rows = decide (2 ≤ rows.length) :=
  is2d_eq rows m hr hm

theorem chunks_map {A B : Type} (f : A → B) (steps : List (List A)) (m : Nat) (h : ∀ s ∈ steps, s.length = m) :
    ((List.range steps.length).map fun s => ((steps.flatten.drop (s * m)).take m).map f) = steps.map fun s => s.map f := by
  have := congrArg (List.map (List.map f)) (take_frames steps m h)
  rw [List.map_map] at this
  exact this

section
variable {natoms : Nat}

theorem steps_length {A : Type} (steps : List (List A)) (h : ∀ s ∈ steps, s.length = natoms) : steps.flatten.length = steps.length * natoms := by
  rw [List.length_flatten, List.map_congr_left (g := fun _ => natoms) h]
  simp

/-- **C91**: coordinates, velocities and (from `FTRAJECTORY`) forces of every step and atom; marks of restarts may be anywhere. -/
theorem C91_trajectory_partial (junk : K) (ft : Bool) (file : List Text) (steps : List (List (AtomStep K)))
    (h : IsTrajFile num file (steps.flatten.map (AtomStep.row ft))) (hs : ∀ s ∈ steps, s.length = natoms) (hna : 0 < natoms)
    (h2 : 2 ≤ steps.length * natoms) :
    trajectory junk num natoms ft file = .ok ⟨steps.map fun s => s.map fun a => vec a.pos, steps.map fun s => s.map fun a => vec a.vel,
      if ft then some (steps.map fun s => s.map fun a => vec a.force) else none⟩ := by
  have hl := steps_length steps hs
  have hrow : ∀ r ∈ steps.flatten.map (AtomStep.row ft), r.length = if ft then 10 else 7 := by
    intro r hr
    obtain ⟨a, _, rfl⟩ := List.mem_map.1 hr
    exact rows_length ft a
  have hne : steps.flatten.map (AtomStep.row ft) ≠ [] := by
    intro hc
    have := congrArg List.length hc
    rw [List.length_map, hl] at this
    simp only [List.length_nil] at this
    omega
  obtain ⟨t1, t2, t3⟩ := traj_lines h (by
    intro r hr hn
    have := hrow r hr
    rw [hn] at this
    cases ft <;> simp at this)
  have hm : 2 ≤ if ft then 10 else 7 := by cases ft <;> decide
  have hload : loadRows num (file.map fun l => splitWs (cutMark l)) = .ok (steps.flatten.map (AtomStep.row ft)) := by
    rw [← loadRows_filter]
    exact loadRows_eq num _ _ _ (by omega) t2 hrow
  have hhead : ((steps.flatten.map (AtomStep.row ft)).headD []).length = if ft then 10 else 7 := by
    obtain ⟨r, rs, e⟩ := List.exists_cons_of_ne_nil hne
    rw [e]
    exact hrow r (by simp [e])
  have h2d := is2d_rows _ _ hm hrow
  rw [List.length_map, hl] at t1 h2d
  unfold trajectory
  simp only [t1, t3 hne, hload, h2d, hhead, List.length_map, hl]
  rw [if_neg hna.ne', if_neg (by simp), if_neg (by simp), Nat.mul_div_cancel _ hna,
    if_pos (by rw [decide_eq_true h2]; simp [Nat.mul_comm])]
  have part : ∀ (k : Nat) (f : AtomStep K → List K), (∀ a : AtomStep K, [(a.row ft).getD k junk, (a.row ft).getD (k + 1) junk,
      (a.row ft).getD (k + 2) junk] = f a) → ((List.range steps.length).map fun s =>
      (((steps.flatten.map (AtomStep.row ft)).drop (s * natoms)).take natoms).map fun r => [r.getD k junk, r.getD (k + 1) junk, r.getD (k + 2) junk]) =
      steps.map fun s => s.map f := by
    intro k f hf
    rw [← chunks_map f steps natoms hs]
    apply List.map_congr_left
    intro s _
    rw [← List.map_drop, ← List.map_take, List.map_map]
    apply List.map_congr_left
    intro a _
    exact hf a
  rw [part 1 (fun a => vec a.pos) fun a => by cases ft <;> rfl, part 4 (fun a => vec a.vel) fun a => by cases ft <;> rfl]
  cases ft with
  | false => rfl
  | true =>
    rw [part 7 (fun a => vec a.force) fun a => rfl]

/-- **C91**: what is missing: a run of one step with one atom: `AssertionError`. -/
theorem C91_single_atom_counterexample (junk : K) (ft : Bool) (file : List Text) (a : AtomStep K) (h : IsTrajFile num file [a.row ft]) :
    trajectory junk num 1 ft file = .error .assertion := by
  have hrow : ∀ r ∈ [a.row ft], r.length = if ft then 10 else 7 := by
    intro r hr
    rw [List.mem_singleton.1 hr]
    exact rows_length ft a
  obtain ⟨t1, t2, t3⟩ := traj_lines h (by
    intro r hr hn
    have := hrow r hr
    rw [hn] at this
    cases ft <;> simp at this)
  have hm : 2 ≤ if ft then 10 else 7 := by cases ft <;> decide
  have hload : loadRows num (file.map fun l => splitWs (cutMark l)) = .ok [a.row ft] := by
    rw [← loadRows_filter]
    exact loadRows_eq num _ _ _ (by omega) t2 hrow
  have h2d := is2d_rows _ _ hm hrow
  unfold trajectory
  simp only [t1, t3 (by simp), hload, h2d]
  simp

/-- **C91**: a file with an incomplete last step (a killed run) is refused. -/
theorem C91_trajectory_truncated (junk : K) (ft : Bool) (file : List Text) (rows : List (List K)) (h : IsTrajFile num file rows)
    (hr : ∀ r ∈ rows, r ≠ []) (hna : 0 < natoms) (hm : ¬ natoms ∣ rows.length) : trajectory junk num natoms ft file = .error .assertion := by
  obtain ⟨t1, -, -⟩ := traj_lines h hr
  unfold trajectory
  simp only [t1]
  rw [if_neg hna.ne', if_pos fun hc => hm (Nat.dvd_of_mod_eq_zero hc)]

end

/-! ## CELL and STRESS -/

theorem grepA_adjacent (p : Text → Bool) (hd : Text) (R rest : List Text) (n c : Nat) (s : Bool) (hh : p hd = true) (hR : ∀ l ∈ R, p l = false)
    (hn : R.length = n) : grepA n p (hd :: R ++ rest) c s false = hd :: R ++ grepA n p rest 0 true false := by
  have rows : ∀ (R : List Text) (c : Nat), (∀ l ∈ R, p l = false) → R.length ≤ c →
      grepA n p (R ++ rest) c true false = R ++ grepA n p rest (c - R.length) true false := by
    intro R
    induction R with
    | nil => intro c _ _; simp
    | cons l R ih =>
      intro c h hc
      obtain ⟨c, rfl⟩ : ∃ c', c = c' + 1 := ⟨c - 1, by simp at hc; omega⟩
      simp only [List.cons_append, grepA, h l (by simp), Bool.false_eq_true, if_false]
      rw [ih c (fun x hx => h x (by simp [hx])) (by simpa using hc)]
      simp
  simp only [List.cons_append, grepA, hh, if_true, Bool.and_false, Bool.false_eq_true, if_false, List.nil_append]
  rw [rows R n hR hn.le, hn, Nat.sub_self]

variable {key : Text} {ncols : Nat}

theorem grepA_blocks (bs : List (Block3 K)) (rest : List Text) (hk : ∀ b ∈ bs, isInfix key b.header = true ∧ b.rows.length = 3 ∧
    ∀ r ∈ b.rows, isInfix key r.1 = false) (s : Bool) :
    grepA 3 (isInfix key) (bs.flatMap Block3.lines ++ rest) 0 s false =
      bs.flatMap Block3.lines ++ grepA 3 (isInfix key) rest 0 (s || bs ≠ []) false := by
  induction bs generalizing s with
  | nil => simp
  | cons b bs ih =>
    obtain ⟨h1, h2, h3⟩ := hk b (by simp)
    rw [List.flatMap_cons, List.append_assoc]
    have := grepA_adjacent (isInfix key) b.header (b.rows.map Prod.fst) (bs.flatMap Block3.lines ++ rest) 3 0 s h1 (by
      intro l hl
      obtain ⟨r, hr, rfl⟩ := List.mem_map.1 hl
      exact h3 r hr) (by simpa using h2)
    rw [Block3.lines, this, ih fun x hx => hk x (by simp [hx])]
    simp

theorem block_lines (key' : Text) (bs : List (Block3 K)) (hk : ∀ b ∈ bs, isInfix key' b.header = true ∧ b.rows.length = 3 ∧
    ∀ r ∈ b.rows, isInfix key' r.1 = false) :
    ((bs.flatMap Block3.lines).filter (isInfix key')).length = bs.length ∧
    (bs.flatMap Block3.lines).filter (fun l => !isInfix key' l) = (bs.flatMap Block3.rows).map Prod.fst := by
  induction bs with
  | nil => simp
  | cons b bs ih =>
    obtain ⟨i1, i2⟩ := ih fun x hx => hk x (by simp [hx])
    obtain ⟨h1, h2, h3⟩ := hk b (by simp)
    have r1 : (b.rows.map Prod.fst).filter (isInfix key') = [] := by
      rw [List.filter_eq_nil_iff]
      intro l hl
      obtain ⟨r, hr, rfl⟩ := List.mem_map.1 hl
      simp [h3 r hr]
    have r2 : (b.rows.map Prod.fst).filter (fun l => !isInfix key' l) = b.rows.map Prod.fst := by
      rw [List.filter_eq_self]
      intro l hl
      obtain ⟨r, hr, rfl⟩ := List.mem_map.1 hl
      simp [h3 r hr]
    rw [List.flatMap_cons, List.filter_append, List.filter_append, List.length_append, i1, i2, List.flatMap_cons, List.map_append]
    simp only [Block3.lines, List.filter_cons, h1, r1, r2]
    constructor
    · simp
      omega
    · simp

theorem has_mono {a b l : Text} (h : ∃ u v, b = u ++ a ++ v) (hl : Has b l) : Has a l := by
  obtain ⟨u, v, rfl⟩ := h
  obtain ⟨x, y, rfl⟩ := hl
  exact ⟨x ++ u, v ++ y, by simp⟩

theorem block_key (b : Block3 K) (hb : b.Wf num key ncols) (k : Text) (hk : ∃ u v, key = u ++ k ++ v)
    (hr : (∃ u v, k = u ++ "CELL".toList ++ v) ∨ ∃ u v, k = u ++ "TOTAL".toList ++ v) :
    isInfix k b.header = true ∧ b.rows.length = 3 ∧ ∀ r ∈ b.rows, isInfix k r.1 = false := by
  refine ⟨(has_iff _ _).2 (has_mono hk hb.header), hb.nrows, ?_⟩
  intro r hm
  obtain ⟨h1, h2, -⟩ := hb.rows r hm
  rcases hr with hr | hr
  · exact has_false fun hc => h1 (has_mono hr hc)
  · exact has_false fun hc => h2 (has_mono hr hc)

theorem blocks_words (bs : List (Block3 K)) (hb : ∀ b ∈ bs, b.Wf num key ncols) :
    (((bs.flatMap Block3.rows).map Prod.fst).flatMap splitWs).map num =
      ((bs.map fun b => b.rows.map Prod.snd).flatMap List.flatten).map some := by
  rw [words_rows num _ (by
    intro r hr
    obtain ⟨b, hm, hr⟩ := List.mem_flatMap.1 hr
    exact ((hb b hm).rows r hr).2.2.2)]
  congr 1
  rw [List.map_flatMap, List.flatMap_map, List.flatMap_def, List.flatMap_def, List.flatten_flatten, List.map_map]
  rfl

theorem traj_eq (bs : List (Block3 K)) (hb : ∀ b ∈ bs, b.Wf num key ncols) (h0 : bs ≠ []) (hn : 0 < ncols) :
    trajFromTxt num (((bs.flatMap Block3.rows).map Prod.fst).flatMap splitWs) bs.length 3 ncols = .ok (some (bs.map fun b => b.rows.map Prod.snd)) := by
  have := trajFromTxt_eq num _ (bs.map fun b => b.rows.map Prod.snd) 3 ncols (by omega) hn (by
    intro a ha
    obtain ⟨b, hm, rfl⟩ := List.mem_map.1 ha
    refine ⟨by simp [(hb b hm).nrows], ?_⟩
    intro v hv
    obtain ⟨r, hr, rfl⟩ := List.mem_map.1 hv
    exact ((hb b hm).rows r hr).2.2.1) (blocks_words bs hb)
  rw [List.length_map] at this
  rw [this, if_neg (by simpa using h0)]

/-- **C91**: the cell of every block in the file `CELL`: the first three columns. -/
theorem C91_cell (bs : List (Block3 K)) (hb : ∀ b ∈ bs, b.Wf num "CELL PARAMETERS".toList ncols) (h0 : bs ≠ []) (hn : 0 < ncols) :
    cell num (bs.flatMap Block3.lines) = .ok (bs.map fun b => b.rows.map fun r => r.2.take 3) := by
  have k1 := fun b hm => block_key b (hb b hm) "CELL PARAMETERS".toList ⟨[], [], rfl⟩ (Or.inl ⟨[], " PARAMETERS".toList, rfl⟩)
  have k2 := fun b hm => block_key b (hb b hm) "CELL".toList ⟨[], " PARAMETERS".toList, rfl⟩ (Or.inl ⟨[], [], rfl⟩)
  have hg := grepA_blocks bs [] k1 false
  rw [List.append_nil, show ∀ s g, grepA 3 (isInfix "CELL PARAMETERS".toList) [] 0 s g = [] from fun _ _ => rfl, List.append_nil] at hg
  have hcols : (splitWs (((bs.flatMap Block3.lines).take 2).getLastD [])).length = ncols := by
    obtain ⟨b, bs', rfl⟩ := List.exists_cons_of_ne_nil h0
    have hw := hb b (by simp)
    match hr : b.rows, hw.nrows with
    | [r1, r2, r3], _ =>
      have : ((b :: bs').flatMap Block3.lines).take 2 = [b.header, r1.1] := by simp [Block3.lines, hr]
      rw [this]
      have h1 := hw.rows r1 (by simp [hr])
      simp only [List.getLastD_cons, List.getLastD_nil]
      rw [row_words r1 h1.2.2.2, h1.2.2.1]
  unfold cell
  simp only [hg, (block_lines _ bs k1).1, (block_lines _ bs k2).2, hcols, traj_eq bs hb h0 hn, List.map_map]
  congr 1
  apply List.map_congr_left
  intro b _
  simp

/-- **C91**: a `CELL` file with other lines between the blocks (at least two groups of blocks) is refused with `ValueError`, not misread: `grep`
prints a separator, which is no number. -/
theorem C91_cell_gap (bs cs : List (Block3 K)) (hb : ∀ b ∈ bs ++ cs, b.Wf num "CELL PARAMETERS".toList ncols) (h0 : bs ≠ []) (h1 : cs ≠ [])
    (hn : 0 < ncols) (noise : List Text) (hne : noise ≠ []) (hq : ∀ l ∈ noise, ¬ Has "CELL".toList l) (hd : num "--".toList = none) :
    cell num (bs.flatMap Block3.lines ++ noise ++ cs.flatMap Block3.lines) = .error .value := by
  have k1 := fun b hm => block_key b (hb b hm) "CELL PARAMETERS".toList ⟨[], [], rfl⟩ (Or.inl ⟨[], " PARAMETERS".toList, rfl⟩)
  have k2 := fun b hm => block_key b (hb b hm) "CELL".toList ⟨[], " PARAMETERS".toList, rfl⟩ (Or.inl ⟨[], [], rfl⟩)
  have hbs : ∀ b ∈ bs, b ∈ bs ++ cs := fun b h => by simp [h]
  have hcs : ∀ b ∈ cs, b ∈ bs ++ cs := fun b h => by simp [h]
  have hqk : ∀ l ∈ noise, isInfix "CELL PARAMETERS".toList l = false :=
    fun l hl => has_false fun hc => hq l hl (has_mono ⟨[], " PARAMETERS".toList, rfl⟩ hc)
  have hskip : ∀ (ns rest : List Text) (g : Bool), (∀ l ∈ ns, isInfix "CELL PARAMETERS".toList l = false) →
      grepA 3 (isInfix "CELL PARAMETERS".toList) (ns ++ rest) 0 true g =
        grepA 3 (isInfix "CELL PARAMETERS".toList) rest 0 true (g || ns ≠ []) := by
    intro ns
    induction ns with
    | nil => intro rest g _; simp
    | cons l ns ih =>
      intro rest g h
      simp only [List.cons_append, grepA, h l (by simp), Bool.false_eq_true, if_false]
      rw [ih rest true fun x hx => h x (by simp [hx])]
      simp
  have hg := grepA_blocks bs (noise ++ cs.flatMap Block3.lines) (fun b h => k1 b (hbs b h)) false
  rw [Bool.false_or, decide_eq_true (by simpa using h0), hskip noise _ false hqk, Bool.false_or, decide_eq_true (by simpa using hne)] at hg
  obtain ⟨c, cs', ec⟩ := List.exists_cons_of_ne_nil h1
  obtain ⟨tail, ht⟩ : ∃ tail, grepA 3 (isInfix "CELL PARAMETERS".toList) (cs.flatMap Block3.lines) 0 true true = "--".toList :: tail := by
    rw [ec, List.flatMap_cons, Block3.lines, List.cons_append, grepA, if_pos (k1 c (hcs c (by simp [ec]))).1]
    exact ⟨_, rfl⟩
  rw [ht, ← List.append_assoc] at hg
  have hcols : (splitWs (((bs.flatMap Block3.lines ++ noise ++ cs.flatMap Block3.lines).take 2).getLastD [])).length = ncols := by
    obtain ⟨b, bs', rfl⟩ := List.exists_cons_of_ne_nil h0
    have hw := hb b (by simp)
    match hr : b.rows, hw.nrows with
    | [r1, r2, r3], _ =>
      have : ((b :: bs').flatMap Block3.lines ++ noise ++ cs.flatMap Block3.lines).take 2 = [b.header, r1.1] := by simp [Block3.lines, hr]
      rw [this]
      have h1 := hw.rows r1 (by simp [hr])
      simp only [List.getLastD_cons, List.getLastD_nil]
      rw [row_words r1 h1.2.2.2, h1.2.2.1]
  have hstep : bs.length < ((bs.flatMap Block3.lines ++ noise ++ cs.flatMap Block3.lines).filter (isInfix "CELL PARAMETERS".toList)).length := by
    rw [List.filter_append, List.filter_append, List.length_append, List.length_append, (block_lines _ bs fun b h => k1 b (hbs b h)).1,
      (block_lines _ cs fun b h => k1 b (hcs b h)).1]
    have := List.length_pos_of_ne_nil h1
    omega
  have hdash : isInfix "CELL".toList "--".toList = false := by decide
  have hfil : (bs.flatMap Block3.lines ++ "--".toList :: tail).filter (fun l => !isInfix "CELL".toList l) =
      (bs.flatMap Block3.rows).map Prod.fst ++ "--".toList :: tail.filter fun l => !isInfix "CELL".toList l := by
    rw [List.filter_append, (block_lines _ bs fun b h => k2 b (hbs b h)).2, List.filter_cons, hdash]
    rfl
  have hwords := blocks_words bs fun b h => hb b (hbs b h)
  have hstop : ∀ (ws rest : List Text) (v : List K), ws.map num = v.map some → fromString num (ws ++ "--".toList :: rest) = v := by
    intro ws
    induction ws with
    | nil =>
      intro rest v hv
      have : v = [] := by simpa using hv.symm
      rw [this, List.nil_append, fromString, hd]
    | cons w ws ih =>
      intro rest v hv
      cases v with
      | nil => simp at hv
      | cons x v =>
        simp only [List.map_cons, List.cons.injEq] at hv
        simp only [List.cons_append, fromString, hv.1, ih rest v hv.2]
  have hsp : splitWs "--".toList = ["--".toList] := by decide
  have hlen : ((bs.map fun b => b.rows.map Prod.snd).flatMap List.flatten).length = bs.length * 3 * ncols := by
    rw [List.flatMap_def, List.length_flatten, List.map_map, List.map_map,
      List.map_congr_left (g := fun _ => 3 * ncols)]
    · simp [Nat.mul_assoc]
    · intro b hm
      simp only [Function.comp]
      rw [flatten_const_length _ ncols, List.length_map, (hb b (hbs b hm)).nrows]
      intro v hv
      obtain ⟨r, hr, rfl⟩ := List.mem_map.1 hv
      exact ((hb b (hbs b hm)).rows r hr).2.2.1
  unfold cell
  rw [List.append_assoc] at hcols hstep ⊢
  rw [List.append_assoc] at hg
  simp only [hg, hcols]
  rw [hfil]
  unfold trajFromTxt
  rw [List.flatMap_append, List.flatMap_cons, hsp, List.singleton_append]
  rw [if_neg (by simp)]
  simp only [hstop _ _ _ hwords, hlen]
  rw [if_neg]
  intro hc
  have : bs.length * 3 * ncols <
      ((bs.flatMap Block3.lines ++ (noise ++ cs.flatMap Block3.lines)).filter (isInfix "CELL PARAMETERS".toList)).length * 3 * ncols :=
    Nat.mul_lt_mul_of_pos_right (Nat.mul_lt_mul_of_pos_right hstep (by omega)) hn
  omega

/-- **C91**: the stress tensor of every block in the file `STRESS`. -/
theorem C91_stress (bs : List (Block3 K)) (hb : ∀ b ∈ bs, b.Wf num "TOTAL STRESS TENSOR".toList 3) (h0 : bs ≠ []) :
    stress num (bs.flatMap Block3.lines) = .ok (some (bs.map fun b => b.rows.map Prod.snd)) := by
  have k1 := fun b hm => block_key b (hb b hm) "TOTAL STRESS TENSOR".toList ⟨[], [], rfl⟩ (Or.inr ⟨[], " STRESS TENSOR".toList, rfl⟩)
  have k2 := fun b hm => block_key b (hb b hm) "TOTAL".toList ⟨[], " STRESS TENSOR".toList, rfl⟩ (Or.inr ⟨[], [], rfl⟩)
  have k3 := fun b hm => block_key b (hb b hm) "TOTAL STRESS".toList ⟨[], " TENSOR".toList, rfl⟩ (Or.inr ⟨[], " STRESS".toList, rfl⟩)
  have hg := grepA_blocks bs [] k1 false
  rw [List.append_nil, show ∀ s g, grepA 3 (isInfix "TOTAL STRESS TENSOR".toList) [] 0 s g = [] from fun _ _ => rfl, List.append_nil] at hg
  unfold stress
  simp only [hg, (block_lines _ bs k3).1, (block_lines _ bs k2).2]
  exact traj_eq bs hb h0 (by omega)

/-! ## GEOMETRY -/

theorem digitBlank_noBlank (w : Text) (h : ' ' ∉ w) : digitBlank w = 0 := by
  induction w with
  | nil => rfl
  | cons c w ih =>
    cases w with
    | nil => rfl
    | cons d w =>
      simp only [List.mem_cons, not_or] at h
      rw [digitBlank, ih (by simp only [List.mem_cons, not_or]; exact h.2), if_neg]
      simpa using fun _ => Ne.symm h.2.1

theorem digitBlank_lead (n : Nat) (t : Text) : digitBlank (List.replicate n ' ' ++ t) = digitBlank t := by
  induction n with
  | zero => rfl
  | succ n ih =>
    rw [List.replicate_succ, List.cons_append]
    cases hx : List.replicate n ' ' ++ t with
    | nil =>
      rw [hx] at ih
      rw [← ih]
      rfl
    | cons d u =>
      rw [hx] at ih
      have hsp : (' ' : Char).isDigit = false := by decide
      rw [digitBlank, hsp, ih]
      simp

theorem digitBlank_word (w t : Text) (h : ' ' ∉ w) :
    digitBlank (w ++ ' ' :: t) = (if (w.getLast?.map Char.isDigit).getD false then 1 else 0) + digitBlank (' ' :: t) := by
  induction w with
  | nil => simp
  | cons c w ih =>
    simp only [List.mem_cons, not_or] at h
    cases w with
    | nil => cases hc : c.isDigit <;> simp [digitBlank, hc]
    | cons d w =>
      have := ih h.2
      rw [List.cons_append] at this ⊢
      rw [List.cons_append, digitBlank, this, if_neg]
      · simp
      · simp only [List.mem_cons, not_or] at h
        simpa using fun _ => Ne.symm h.2.1

theorem digitBlank_line {l : Text} {ws : List Text} (h : BlankLine l ws) : digitBlank l + 1 ≤ ws.length := by
  induction h with
  | one h => rw [digitBlank_lead, digitBlank_noBlank _ h]; simp
  | @cons n m w t ws h _ ih =>
    rw [List.append_assoc, List.append_assoc, digitBlank_lead, List.replicate_succ, List.cons_append, digitBlank_word _ _ h,
      ← List.cons_append, ← List.replicate_succ, digitBlank_lead]
    simp only [List.length_cons]
    split <;> omega

theorem digitBlank_ge {l : Text} {ws : List Text} (h : BlankLine l ws) (k : Nat) (hk : k + 1 ≤ ws.length)
    (hd : ∀ w ∈ ws.take k, (w.getLast?.map Char.isDigit).getD false = true) : k ≤ digitBlank l := by
  induction h generalizing k with
  | one h => simp at hk; omega
  | @cons n m w t ws h _ ih =>
    rw [List.append_assoc, List.append_assoc, digitBlank_lead, List.replicate_succ, List.cons_append, digitBlank_word _ _ h,
      ← List.cons_append, ← List.replicate_succ, digitBlank_lead]
    cases k with
    | zero => omega
    | succ k =>
      rw [if_pos (hd w (by simp))]
      have := ih k (by simpa using hk) fun x hx => hd x (by simp [hx])
      omega

/-- **C91**: the number of atoms: lines with six (or more) columns of numbers are counted, lines with at most five columns are not. -/
theorem C91_natoms (file : List (Text × Bool)) (h : ∀ l ∈ file, ∃ ws, BlankLine l.1 ws ∧ if l.2 then 6 ≤ ws.length ∧
    (∀ w ∈ ws.take 5, ∃ u d, w = u ++ [d] ∧ d.isDigit = true) else ws.length ≤ 5) :
    natoms (file.map Prod.fst) = (file.filter Prod.snd).length := by
  unfold natoms
  rw [List.filter_map, List.length_map]
  congr 1
  apply List.filter_congr
  intro l hl
  obtain ⟨ws, hb, hw⟩ := h l hl
  simp only [Function.comp]
  cases hk : l.2 with
  | true =>
    rw [hk, if_pos rfl] at hw
    refine decide_eq_true (digitBlank_ge hb 5 hw.1 ?_)
    intro w hm
    obtain ⟨u, d, rfl, hd⟩ := hw.2 w hm
    simp [hd]
  | false =>
    rw [hk, if_neg (by simp)] at hw
    have := digitBlank_line hb
    exact decide_eq_false (by omega)

/-! ## examples -/

def exEnergies : List Text := ["1 0 300 -7 -6 -5 0 1".toList, "2 0 310 -8 -6 -5 0 1".toList]

theorem exEnergies_table : IsTable Lmp.exNum exEnergies [[1, 0, 300, -7, -6, -5, 0, 1], [2, 0, 310, -8, -6, -5, 0, 1]] :=
  IsTable.row (by decide +kernel) (by decide +kernel) (IsTable.row (by decide +kernel) (by decide +kernel) IsTable.nil)

example : temperature (-1) Lmp.exNum exEnergies = .ok (some [300, 310]) ∧ ekinCell (-1) Lmp.exNum exEnergies = .ok none ∧
    econst (-1) Lmp.exNum exEnergies = .ok (some [-5, -5]) := by
  obtain ⟨h1, -, -, -, h2, h3⟩ := C91_energies_partial (-1) _ EnergyColumns.cp exEnergies _ exEnergies_table (by decide) (by decide)
  exact ⟨h1, h2, h3⟩

example : temperature (-1) Lmp.exNum (exEnergies.take 1) = .error (.py .index) :=
  C91_single_row_counterexample (K := Rat) (num := Lmp.exNum) (-1) _ EnergyColumns.cp _ [1, 0, 300, -7, -6, -5, 0, 1]
    (IsTable.row (by decide +kernel) (by decide +kernel) IsTable.nil) rfl "tempp"

example : temperature (-1) Lmp.exNum ["1 2 3".toList] = .error .columns :=
  C91_other_columns (-1) _ [[1, 2, 3]] 3 (IsTable.row (by decide +kernel) (by decide +kernel) IsTable.nil) (by decide) (by decide) (by simp)
    (by decide) _

def exTraj : List Text := ["1 1 2 3 4 5 6".toList, "  <<<<<<  NEW DATA  >>>>>>".toList, "2 7 8 9 10 11 12".toList]

theorem exTraj_file : IsTrajFile Lmp.exNum exTraj ([[⟨1, (1, 2, 3), (4, 5, 6), (0, 0, 0)⟩], [⟨2, (7, 8, 9), (10, 11, 12), (0, 0, 0)⟩]].flatten.map
    (AtomStep.row false)) :=
  IsTrajFile.row (notHas_of _ _ (by decide +kernel)) (by decide +kernel) (by decide +kernel)
    (IsTrajFile.mark (n := 2) (t := "<<  NEW DATA  >>>>>>".toList)
      (IsTrajFile.row (notHas_of _ _ (by decide +kernel)) (by decide +kernel) (by decide +kernel) IsTrajFile.nil))

example : trajectory (-1) Lmp.exNum 1 false exTraj = .ok ⟨[[[1, 2, 3]], [[7, 8, 9]]], [[[4, 5, 6]], [[10, 11, 12]]], none⟩ :=
  C91_trajectory_partial (-1) false exTraj _ exTraj_file (by decide) (by decide) (by decide)

example : trajectory (-1) Lmp.exNum 1 false (exTraj.take 1) = .error .assertion :=
  C91_single_atom_counterexample (-1) false _ ⟨1, (1, 2, 3), (4, 5, 6), (0, 0, 0)⟩
    (IsTrajFile.row (notHas_of _ _ (by decide +kernel)) (by decide +kernel) (by decide +kernel) IsTrajFile.nil)

example : trajectory (-1) Lmp.exNum 3 false exTraj = .error .assertion :=
  C91_trajectory_truncated (-1) false exTraj _ exTraj_file (by decide) (by decide) (by decide)

def exBlock (x : Rat) (t : Text) : Block3 Rat :=
  ⟨" CELL PARAMETERS at Step: ".toList ++ t, [("1 2 3 4".toList, [1, 2, 3, 4]), ("5 6 7 8".toList, [5, 6, 7, 8]), ("9 1 2 3".toList, [9, 1, 2, 3])]⟩

theorem exBlock_wf (x : Rat) (t : Text) : (exBlock x t).Wf Lmp.exNum "CELL PARAMETERS".toList 4 := by
  have e : " CELL PARAMETERS at Step: ".toList = " ".toList ++ "CELL PARAMETERS".toList ++ " at Step: ".toList := by decide +kernel
  have hh : Has "CELL PARAMETERS".toList (exBlock x t).header := by
    unfold exBlock
    rw [e, List.append_assoc]
    exact Exists.intro " ".toList (Exists.intro (" at Step: ".toList ++ t) rfl)
  refine { header := hh, nrows := rfl, rows := ?_ }
  have h : ∀ r ∈ [("1 2 3 4".toList, ([1, 2, 3, 4] : List Rat)), ("5 6 7 8".toList, [5, 6, 7, 8]), ("9 1 2 3".toList, [9, 1, 2, 3])],
      isInfix "CELL".toList r.1 = false ∧ isInfix "TOTAL".toList r.1 = false ∧ r.2.length = 4 ∧ (splitWs r.1).map Lmp.exNum = r.2.map some := by
    decide +kernel
  intro r hr
  obtain ⟨h1, h2, h3⟩ := h r hr
  exact ⟨notHas_of _ _ h1, notHas_of _ _ h2, h3⟩

example (t u : Text) : cell Lmp.exNum ([exBlock 0 t, exBlock 0 u].flatMap Block3.lines) =
      .ok [[[1, 2, 3], [5, 6, 7], [9, 1, 2]], [[1, 2, 3], [5, 6, 7], [9, 1, 2]]] ∧
    cell Lmp.exNum ([exBlock 0 t].flatMap Block3.lines ++ [[]] ++ [exBlock 0 u].flatMap Block3.lines) = .error .value := by
  have hw : ∀ b ∈ [exBlock 0 t, exBlock 0 u], b.Wf Lmp.exNum "CELL PARAMETERS".toList 4 := by
    intro b hb
    simp only [List.mem_cons, List.not_mem_nil, or_false] at hb
    rcases hb with hb | hb <;> rw [hb] <;> exact exBlock_wf _ _
  exact ⟨C91_cell _ hw (by simp) (by decide), C91_cell_gap [_] [_] hw (by simp) (by simp) (by decide) [[]] (by simp)
    (by intro l hl; rw [List.mem_singleton.1 hl]; exact notHas_of _ _ (by decide)) (by decide +kernel)⟩

example : stress Lmp.exNum ([(⟨" TOTAL STRESS TENSOR (kB)".toList, [("1 2 3".toList, [1, 2, 3]), ("5 6 7".toList, [5, 6, 7]), ("9 1 2".toList, [9, 1, 2])]⟩ :
    Block3 Rat)].flatMap Block3.lines) = .ok (some [[[1, 2, 3], [5, 6, 7], [9, 1, 2]]]) := by
  refine C91_stress _ ?_ (by simp)
  intro b hb
  rw [List.mem_singleton.1 hb]
  refine ⟨⟨" ".toList, " (kB)".toList, by decide +kernel⟩, rfl, ?_⟩
  have h : ∀ r ∈ [("1 2 3".toList, ([1, 2, 3] : List Rat)), ("5 6 7".toList, [5, 6, 7]), ("9 1 2".toList, [9, 1, 2])],
      isInfix "CELL".toList r.1 = false ∧ isInfix "TOTAL".toList r.1 = false ∧ r.2.length = 3 ∧ (splitWs r.1).map Lmp.exNum = r.2.map some := by
    decide +kernel
  intro r hr
  obtain ⟨h1, h2, h3⟩ := h r hr
  exact ⟨notHas_of _ _ h1, notHas_of _ _ h2, h3⟩

example (u : Text) (hu : ' ' ∉ u) : natoms ["1.0 2.0  3.0 0.1 0.2 0.3".toList, "total".toList ++ ' ' :: u, "  4.0 5.0 6.0 0.1 0.2 -0.3".toList] = 2 := by
  have h : ∀ a b c d e f : Text, (∀ x ∈ [a, b, c, d, e, f], ' ' ∉ x) → ∀ n m : Nat,
      BlankLine (List.replicate n ' ' ++ a ++ List.replicate 1 ' ' ++ (List.replicate 0 ' ' ++ b ++ List.replicate (m + 1) ' ' ++
        (List.replicate 0 ' ' ++ c ++ List.replicate 1 ' ' ++ (List.replicate 0 ' ' ++ d ++ List.replicate 1 ' ' ++
        (List.replicate 0 ' ' ++ e ++ List.replicate 1 ' ' ++ (List.replicate 0 ' ' ++ f)))))) [a, b, c, d, e, f] := by
    intro a b c d e f hx n m
    exact BlankLine.cons (hx _ (by simp)) (BlankLine.cons (hx _ (by simp)) (BlankLine.cons (hx _ (by simp)) (BlankLine.cons (hx _ (by simp))
      (BlankLine.cons (hx _ (by simp)) (BlankLine.one (hx _ (by simp)))))))
  have h1 := h "1.0".toList "2.0".toList "3.0".toList "0.1".toList "0.2".toList "0.3".toList (by decide +kernel) 0 1
  have h2 := h "4.0".toList "5.0".toList "6.0".toList "0.1".toList "0.2".toList "-0.3".toList (by decide +kernel) 2 0
  have h3 : BlankLine ("total".toList ++ ' ' :: u) ["total".toList, u] :=
    BlankLine.cons (n := 0) (m := 0) (w := "total".toList) (by decide +kernel) (BlankLine.one (n := 0) hu)
  have d : ∀ w ∈ ["1.0".toList, "2.0".toList, "3.0".toList, "0.1".toList, "0.2".toList, "4.0".toList, "5.0".toList, "6.0".toList],
      ∃ u d, w = u ++ [d] ∧ d.isDigit = true := by
    intro w hw
    have := (by decide +kernel : ∀ w ∈ ["1.0".toList, "2.0".toList, "3.0".toList, "0.1".toList, "0.2".toList, "4.0".toList, "5.0".toList, "6.0".toList],
      w = w.take 2 ++ [w.getD 2 ' '] ∧ (w.getD 2 ' ').isDigit = true) w hw
    exact ⟨_, _, this⟩
  refine C91_natoms [(_, true), (_, false), (_, true)] ?_
  intro l hl
  simp only [List.mem_cons, List.not_mem_nil, or_false] at hl
  rcases hl with hl | hl | hl <;> rw [hl]
  · refine ⟨_, h1, by decide +kernel, ?_⟩
    intro w hw
    exact d w ((by simp : ["1.0".toList, "2.0".toList, "3.0".toList, "0.1".toList, "0.2".toList] ⊆ _) hw)
  · exact ⟨_, h3, by rw [if_neg (by simp)]; simp⟩
  · refine ⟨_, h2, by decide +kernel, ?_⟩
    intro w hw
    exact d w ((by simp : ["4.0".toList, "5.0".toList, "6.0".toList, "0.1".toList, "0.2".toList] ⊆ _) hw)

end Pwtools.Cpmd
