import Verif.Model.Gibbs
import Verif.Props.Thermo
/-!
# C68: the grids of `Gibbs`
-/
namespace Pwtools.Thermo

namespace Dict
theorem write_apply (d : Dict) (k k' : Key) (f : Arr → Arr) :
    d.write k f k' = if k' = k then (d k).map (fun o => o.map f) else d k' := by
  unfold write
  rcases h : d k with _ | _ | a
  · split
    · rename_i e; subst e; simpa using h
    · rfl
  · split
    · rename_i e; subst e; simpa using h
    · rfl
  · simp [set]

theorem write_ne {d : Dict} {k k' : Key} {f : Arr → Arr} (h : k' ≠ k) : d.write k f k' = d k' := by
  rw [write_apply, if_neg h]

theorem write_same {d : Dict} {k : Key} {f : Arr → Arr} {a : Arr} (h : d k = some (some a)) :
    d.write k f k = some (some (f a)) := by
  unfold write
  rw [h]
  simp [set]

theorem set_ne {d : Dict} {k k' : Key} {v : Option Arr} (h : k' ≠ k) : d.set k v k' = d k' := by
  simp [set, h]

theorem set_same {d : Dict} {k : Key} {v : Option Arr} : d.set k v k = some v := by
  simp [set]

theorem upd_none {d e : Dict} {k : Key} (h : e k = none) : d.upd e k = d k := by
  simp [upd, h]

theorem upd_some {d e : Dict} {k : Key} {v : Option Arr} (h : e k = some v) : d.upd e k = some v := by
  simp [upd, h]
end Dict
open Dict

namespace Gibbs
variable (g : Gibbs) (junk : List Nat → ℝ)

/-- The row which `calc_F` writes for a quantity. -/
noncomputable def rowF (i : Nat) (ha : List ℝ × List ℝ) : FName → List ℝ
  | .F => (g.T.map (fvib g.c g.integ ha.1 ha.2)).map (fun v => g.etot.getD i 0 + v)
  | .Fvib => g.T.map (fvib g.c g.integ ha.1 ha.2)
  | .Evib => List.zipWith (fun f ts => f + ts) (g.T.map (fvib g.c g.integ ha.1 ha.2))
      (List.zipWith (fun t s => t * s) g.T (g.T.map (svib g.c g.integ ha.1 ha.2)))
  | .Svib => g.T.map (svib g.c g.integ ha.1 ha.2)
  | .Cv => g.T.map (cv g.c g.integ ha.1 ha.2)

/-- The names of `calc_F`. -/
def fnames (calcAll : Bool) : List FName := if calcAll then [.F, .Fvib, .Evib, .Svib, .Cv] else [.F, .Fvib]

theorem stepF_same (calcAll : Bool) (d : Dict) (i : Nat) (ha : List ℝ × List ℝ) (n : FName) (hn : n ∈ fnames calcAll) (a : Arr)
    (h : d (.axT n) = some (some a)) :
    g.stepF calcAll d i ha (.axT n) = some (some (setRow i (g.rowF i ha n) a)) := by
  cases calcAll <;> cases n <;> simp [fnames] at hn <;> simp [stepF, write_apply, h, rowF]

theorem stepF_ne (calcAll : Bool) (d : Dict) (i : Nat) (ha : List ℝ × List ℝ) (k : Key) (hk : ∀ n ∈ fnames calcAll, k ≠ .axT n) :
    g.stepF calcAll d i ha k = d k := by
  cases calcAll <;> simp [fnames] at hk <;> simp only [stepF, if_true, Bool.false_eq_true, if_false]
  · rw [write_ne hk.2, write_ne hk.1]
  · rw [write_ne hk.2.2.2.2, write_ne hk.2.2.1, write_ne hk.2.2.2.1, write_ne hk.2.1, write_ne hk.1]

theorem loopF_spec (calcAll : Bool) (L : List (Nat × (List ℝ × List ℝ))) (hL : (L.map (fun p => p.1)).Nodup) (d d' : Dict)
    (h : g.loopF calcAll d L = some d') :
    (∀ k, (∀ n ∈ fnames calcAll, k ≠ .axT n) → d' k = d k) ∧
    (∀ n ∈ fnames calcAll, ∀ a, d (.axT n) = some (some a) → ∃ a', d' (.axT n) = some (some a') ∧ a'.shape = a.shape ∧
      (∀ i p, (i, p) ∈ L → ∃ ha, g.harm p = some ha ∧ ∀ t, a'.get [i, t] = (g.rowF i ha n).getD t 0) ∧
      (∀ i, i ∉ L.map (fun p => p.1) → ∀ t, a'.get [i, t] = a.get [i, t])) := by
  induction L generalizing d with
  | nil =>
    simp only [loopF, Option.some.injEq] at h
    subst h
    exact ⟨fun _ _ => rfl, fun n _ a ha => ⟨a, ha, rfl, by simp, fun _ _ _ => rfl⟩⟩
  | cons x rest ih =>
    obtain ⟨i0, p0⟩ := x
    simp only [loopF] at h
    cases hh : g.harm p0 with
    | none => simp [hh] at h
    | some ha0 =>
      simp only [hh] at h
      simp only [List.map_cons, List.nodup_cons] at hL
      obtain ⟨k1, k2⟩ := ih hL.2 _ h
      refine ⟨fun k hk => (k1 k hk).trans (g.stepF_ne calcAll d i0 ha0 k hk), fun n hn a ha => ?_⟩
      obtain ⟨a', e1, e2, e3, e4⟩ := k2 n hn _ (g.stepF_same calcAll d i0 ha0 n hn a ha)
      refine ⟨a', e1, e2, ?_, ?_⟩
      · intro i p hip
        rcases List.mem_cons.1 hip with h1 | h1
        · cases h1
          refine ⟨ha0, hh, fun t => ?_⟩
          rw [e4 _ hL.1 t]
          simp [setRow]
        · exact e3 i p h1
      · intro i hi t
        simp only [List.map_cons, List.mem_cons, not_or] at hi
        rw [e4 i hi.2 t]
        simp [setRow, hi.1]

theorem loopF_ok (calcAll : Bool) (L : List (Nat × (List ℝ × List ℝ))) (d : Dict)
    (h : ∀ p ∈ L, g.harm p.2 ≠ none) : ∃ d', g.loopF calcAll d L = some d' := by
  induction L generalizing d with
  | nil => exact ⟨d, rfl⟩
  | cons x rest ih =>
    obtain ⟨i0, p0⟩ := x
    cases hh : g.harm p0 with
    | none => exact absurd hh (h _ (List.mem_cons_self ..))
    | some ha0 =>
      obtain ⟨d', hd⟩ := ih (g.stepF calcAll d i0 ha0) (fun p hp => h p (List.mem_cons_of_mem _ hp))
      exact ⟨d', by simp [loopF, hh, hd]⟩

theorem range_zip_nodup (l : List (List ℝ × List ℝ)) (n : Nat) : (((List.range n).zip l).map (fun p => p.1)).Nodup := by
  have h : (((List.range n).zip l).map (fun p => p.1)).Sublist (List.range n) := by
    have : ((List.range n).zip l).map (fun p => p.1) = (List.range n).take (min (List.range n).length l.length) := by
      induction l generalizing n with
      | nil => simp
      | cons a l ih =>
        clear ih
        generalize List.range n = r
        induction r generalizing a l with
        | nil => simp
        | cons b r ihr =>
          cases l with
          | nil => simp
          | cons c l => simpa using ihr c l
    rw [this]; exact List.take_sublist _ _
  exact h.nodup List.nodup_range

theorem mem_range_zip (l : List (List ℝ × List ℝ)) (i : Nat) (hi : i < l.length) :
    (i, l[i]) ∈ (List.range l.length).zip l := by
  rw [List.mem_iff_getElem]
  exact ⟨i, by simpa using hi, by simp⟩

/-- **C68** (F). `calc_F` stores arrays of shape (number of grid points, number of temperatures) whose entry
`[i,t]` belongs to grid point `i` and temperature `t`: `F = Etot + Fvib`, and the harmonic quantities
computed from the dos of grid point `i`. `Evib`: see `C68_evib_partial`. -/
theorem C68_F (calcAll : Bool) (h1 : g.axes.length = g.phdos.length) (d : Dict) (h : g.calcF junk calcAll = some d)
    (n : FName) (hn : n = .F ∨ n = .Fvib ∨ calcAll = true ∧ (n = .Svib ∨ n = .Cv)) :
    ∃ a, d (.axT n) = some (some a) ∧ a.shape = [g.axes.length, g.T.length] ∧
      ∀ i (hi : i < g.phdos.length) t (ht : t < g.T.length), ∃ f dos,
        harmInit g.integ (g.phdos[i]).1 (g.phdos[i]).2 g.skipfreq g.eps g.dosarea = some (f, dos) ∧
        a.get [i, t] = match n with
          | .F => g.etot.getD i 0 + fvib g.c g.integ f dos g.T[t]
          | .Fvib => fvib g.c g.integ f dos g.T[t]
          | .Svib => svib g.c g.integ f dos g.T[t]
          | .Cv => cv g.c g.integ f dos g.T[t]
          | .Evib => 0 := by
  unfold calcF at h
  simp only [Option.map_eq_some_iff] at h
  obtain ⟨d1, hd1, rfl⟩ := h
  obtain ⟨-, k2⟩ := g.loopF_spec calcAll _ (range_zip_nodup _ _) _ d1 hd1
  have hmem : n ∈ fnames calcAll := by
    rcases hn with rfl | rfl | ⟨rfl, rfl | rfl⟩
    · cases calcAll <;> simp [fnames]
    · cases calcAll <;> simp [fnames]
    · simp [fnames]
    · simp [fnames]
  obtain ⟨a', e1, e2, e3, -⟩ := k2 n hmem (empty junk [g.n, g.T.length]) (by simp only; rw [if_pos]; exact hmem)
  refine ⟨a', by rw [upd_none rfl]; exact e1, by rw [e2]; rfl, ?_⟩
  intro i hi t ht
  have hm := mem_range_zip g.phdos i hi
  rw [← h1] at hm
  obtain ⟨ha, q1, q2⟩ := e3 i _ hm
  refine ⟨ha.1, ha.2, q1, ?_⟩
  rw [q2 t]
  rcases hn with rfl | rfl | ⟨_, rfl | rfl⟩ <;> simp [rowF, List.getD_eq_getElem?_getD, ht]

/-- **C68** (F): `calc_F` raises only if `HarmonicThermo` refuses one of the dos arrays. -/
theorem C68_F_ok (calcAll : Bool) (h : ∀ p ∈ g.phdos, harmInit g.integ p.1 p.2 g.skipfreq g.eps g.dosarea ≠ none) :
    ∃ d, g.calcF junk calcAll = some d := by
  unfold calcF
  obtain ⟨d', hd⟩ := g.loopF_ok calcAll ((List.range g.n).zip g.phdos) (fun k => match k with
    | .axT n => if n ∈ (if calcAll then [.F, .Fvib, .Evib, .Svib, .Cv] else [.F, .Fvib]) then some (some (empty junk [g.n, g.T.length])) else none
    | _ => none) (fun p hp => h p.2 (List.of_mem_zip hp).2)
  refine ⟨d'.upd g.base, ?_⟩
  simp only [Option.map_eq_some_iff]
  exact ⟨d', hd, rfl⟩

/-- **C68** (Evib). The entry `[i,t]` of `Evib` is `Fvib + T * Svib` with `Svib` in units of kb: for
positive frequencies it differs from the internal energy of `HarmonicThermo` (C66) by
`T * Svib * (1 - kb/eV)`. Missing: the equality. -/
theorem C68_evib_partial (h1 : g.axes.length = g.phdos.length) (d : Dict) (h : g.calcF junk true = some d)
    (hh : 0 < g.c.h) (hk : 0 < g.c.kb) (he : g.c.eV ≠ 0) (hI : Spec.IsQuadrature g.integ) :
    ∃ a, d (.axT .Evib) = some (some a) ∧ a.shape = [g.axes.length, g.T.length] ∧
      ∀ i (hi : i < g.phdos.length) t (ht : t < g.T.length), ∃ f dos,
        harmInit g.integ (g.phdos[i]).1 (g.phdos[i]).2 g.skipfreq g.eps g.dosarea = some (f, dos) ∧
        a.get [i, t] = fvib g.c g.integ f dos g.T[t] + g.T[t] * svib g.c g.integ f dos g.T[t] ∧
        ((∀ x ∈ f, 0 < x) → f.length = dos.length → 0 < g.T[t] → a.get [i, t] = evib g.c g.integ f dos g.T[t] +
          g.T[t] * svib g.c g.integ f dos g.T[t] * (1 - g.c.kb / g.c.eV)) := by
  unfold calcF at h
  simp only [Option.map_eq_some_iff] at h
  obtain ⟨d1, hd1, rfl⟩ := h
  obtain ⟨-, k2⟩ := g.loopF_spec true _ (range_zip_nodup _ _) _ d1 hd1
  obtain ⟨a', e1, e2, e3, -⟩ := k2 .Evib (by simp [fnames]) (empty junk [g.n, g.T.length]) (by simp)
  refine ⟨a', by rw [upd_none rfl]; exact e1, by rw [e2]; rfl, ?_⟩
  intro i hi t ht
  have hm := mem_range_zip g.phdos i hi
  rw [← h1] at hm
  obtain ⟨ha, q1, q2⟩ := e3 i _ hm
  have q3 : a'.get [i, t] = fvib g.c g.integ ha.1 ha.2 g.T[t] + g.T[t] * svib g.c g.integ ha.1 ha.2 g.T[t] := by
    rw [q2 t]
    simp [rowF, List.getD_eq_getElem?_getD, ht]
  refine ⟨ha.1, ha.2, q1, q3, fun p1 p2 p3 => ?_⟩
  rw [q3, C66_energy g.c g.integ ha.1 ha.2 hh hk he hI p2 p1 _ p3]
  ring

theorem addPV_getD (e : List ℝ) (p : ℝ) (i : Nat) (he : i < e.length) (hi : i < g.axes.length) :
    (g.addPV e p).getD i 0 = e.getD i 0 + g.volfunc g.axes[i] * p / g.conv := by
  simp [addPV, vols, List.getD_eq_getElem?_getD, he, hi]

theorem fillH (L : List Nat) (hL : L.Nodup) (d : Dict) (a : Arr) (h : d .PaxH = some (some a)) (row : Nat → List ℝ) :
    let d' := L.foldl (fun d p => d.write .PaxH (setRow p (row p))) d
    (∀ k, k ≠ .PaxH → d' k = d k) ∧ ∃ a', d' .PaxH = some (some a') ∧ a'.shape = a.shape ∧
      (∀ p ∈ L, ∀ i, a'.get [p, i] = (row p).getD i 0) ∧ (∀ p, p ∉ L → ∀ i, a'.get [p, i] = a.get [p, i]) := by
  induction L generalizing d a with
  | nil => exact ⟨fun _ _ => rfl, a, h, rfl, by simp, fun _ _ _ => rfl⟩
  | cons p0 rest ih =>
    simp only [List.nodup_cons] at hL
    obtain ⟨k1, a', e1, e2, e3, e4⟩ := ih hL.2 (d.write .PaxH (setRow p0 (row p0))) (setRow p0 (row p0) a) (write_same h)
    simp only [List.foldl_cons]
    refine ⟨fun k hk => (k1 k hk).trans (write_ne hk), a', e1, e2, ?_, ?_⟩
    · intro p hp i
      rcases List.mem_cons.1 hp with rfl | hp
      · rw [e4 _ hL.1]; simp [setRow]
      · exact e3 p hp i
    · intro p hp i
      simp only [List.mem_cons, not_or] at hp
      rw [e4 p hp.2]
      simp [setRow, hp.1]

theorem colF_write (d : Dict) (f : Arr → Arr) (t : Nat) : g.colF (d.write .TPaxG f) t = g.colF d t := by
  unfold colF
  rw [write_ne (by decide)]

theorem fillG_loop (L : List (Nat × Nat)) (hL : L.Nodup) (d : Dict) (a : Arr) (h : d .TPaxG = some (some a)) :
    let d' := L.foldl (fun d tp => d.write .TPaxG (setRow2 tp.1 tp.2 (g.addPV (g.colF d tp.1) (g.P.getD tp.2 0)))) d
    (∀ k, k ≠ .TPaxG → d' k = d k) ∧ ∃ a', d' .TPaxG = some (some a') ∧ a'.shape = a.shape ∧
      (∀ t p, (t, p) ∈ L → ∀ i, a'.get [t, p, i] = (g.addPV (g.colF d t) (g.P.getD p 0)).getD i 0) ∧
      (∀ t p, (t, p) ∉ L → ∀ i, a'.get [t, p, i] = a.get [t, p, i]) := by
  induction L generalizing d a with
  | nil => exact ⟨fun _ _ => rfl, a, h, rfl, by simp, fun _ _ _ _ => rfl⟩
  | cons x rest ih =>
    obtain ⟨t0, p0⟩ := x
    simp only [List.nodup_cons] at hL
    obtain ⟨k1, a', e1, e2, e3, e4⟩ := ih hL.2 (d.write .TPaxG (setRow2 t0 p0 (g.addPV (g.colF d t0) (g.P.getD p0 0)))) _ (write_same h)
    simp only [List.foldl_cons]
    refine ⟨fun k hk => (k1 k hk).trans (write_ne hk), a', e1, e2, ?_, ?_⟩
    · intro t p hp i
      rcases List.mem_cons.1 hp with hp | hp
      · cases hp
        rw [e4 _ _ hL.1]; simp [setRow2]
      · rw [e3 t p hp i, colF_write]
    · intro t p hp i
      simp only [List.mem_cons, not_or, Prod.mk.injEq] at hp
      rw [e4 t p hp.2]
      simp [setRow2, hp.1]

theorem tp_nodup : g.tp.Nodup := by
  unfold tp
  rw [List.nodup_flatMap]
  refine ⟨fun t _ => (List.nodup_range).map (fun a b h => by simpa using h), ?_⟩
  refine (List.nodup_range).imp ?_
  intro a b hab
  simp only [Function.onFun, List.disjoint_left, List.mem_map]
  rintro ⟨x, y⟩ ⟨p, _, e⟩ ⟨q, _, e'⟩
  cases e; cases e'
  exact hab rfl

theorem mem_tp (t p : Nat) : (t, p) ∈ g.tp ↔ t < g.T.length ∧ p < g.P.length := by
  simp [tp]

/-- The step of `_fit_opt_store` on a set of names, seen through the dictionary. -/
def StoreSpec (key : OName → Key) (S : OName → Prop) (vals : OName → List ℝ → ℝ) : Prop :=
  ∀ d gg idx, (∀ o, S o → ∃ a, d (key o) = some (some a)) →
    ∃ d', g.fitOptStore key d gg idx = some d' ∧ (∀ k, (∀ o, S o → k ≠ key o) → d' k = d k) ∧
      ∀ o, S o → ∀ a, d (key o) = some (some a) → d' (key o) = some (some (setAt idx (vals o gg) a))

/-- The names which are stored for `case='1d'`. -/
def S1 (o : OName) : Prop := o = .V ∨ o = .GH ∨ o = .B ∨ ∃ i, i < g.nax ∧ o = .ax i

/-- The values which are stored for `case='1d'`. -/
noncomputable def vals1 (o : OName) (gg : List ℝ) : ℝ :=
  match o with
  | .V => (g.fit1G g.vols gg).min
  | .GH => (g.fit1G g.vols gg).ev (g.fit1G g.vols gg).min
  | .B => (g.fit1G g.vols gg).min * (g.fit1G g.vols gg).der 2 (g.fit1G g.vols gg).min * g.conv
  | .ax i => (g.fit1ax g.vols (g.axes.map (fun r => r.getD i 0))).ev (g.fit1G g.vols gg).min

theorem axLoop (key : OName → Key) (hkey : Function.Injective key) (N : Nat) (d : Dict) (idx : List Nat) (v : Nat → ℝ) :
    let d' := (List.range N).foldl (fun d iax => d.write (key (.ax iax)) (setAt idx (v iax))) d
    (∀ k, (∀ i, i < N → k ≠ key (.ax i)) → d' k = d k) ∧
    (∀ i, i < N → ∀ a, d (key (.ax i)) = some (some a) → d' (key (.ax i)) = some (some (setAt idx (v i) a))) := by
  induction N with
  | zero => simp
  | succ N ih =>
    simp only [List.range_succ, List.foldl_append, List.foldl_cons, List.foldl_nil]
    obtain ⟨h1, h2⟩ := ih
    refine ⟨fun k hk => ?_, fun i hi a ha => ?_⟩
    · rw [write_ne (hk N (by omega))]
      exact h1 k (fun i hi => hk i (by omega))
    · by_cases e : i = N
      · subst e
        apply write_same
        rw [h1 _ (fun j hj e => by have := hkey e; simp at this; omega)]
        exact ha
      · rw [write_ne (fun e' => e (by simpa using hkey e'))]
        exact h2 i (by omega) a ha

theorem store1 (key : OName → Key) (hkey : Function.Injective key) (hc : g.case = .c1) :
    g.StoreSpec key g.S1 g.vals1 := by
  intro d gg idx _
  unfold fitOptStore
  simp only [hc]
  set d1 := d.write (key .V) (setAt idx (g.fit1G g.vols gg).min) with hd1
  set d2 := d1.write (key .GH) (setAt idx ((g.fit1G g.vols gg).ev (g.fit1G g.vols gg).min)) with hd2
  obtain ⟨h1, h2⟩ := axLoop key hkey g.nax d2 idx (fun iax => (g.fit1ax g.vols (g.axes.map (fun r => r.getD iax 0))).ev (g.fit1G g.vols gg).min)
  refine ⟨_, rfl, ?_, ?_⟩
  · intro k hk
    rw [write_ne (hk _ (Or.inr (Or.inr (Or.inl rfl)))), h1 k (fun i hi => hk _ (Or.inr (Or.inr (Or.inr ⟨i, hi, rfl⟩)))),
      hd2, write_ne (hk _ (Or.inr (Or.inl rfl))), hd1, write_ne (hk _ (Or.inl rfl))]
  · intro o ho a ha
    have nk : ∀ {p q : OName}, p ≠ q → key p ≠ key q := fun h e => h (hkey e)
    rcases ho with rfl | rfl | rfl | ⟨i, hi, rfl⟩
    · rw [write_ne (nk (by simp)), h1 _ (fun i _ => nk (by simp)), hd2, write_ne (nk (by simp)), hd1, write_same ha]; rfl
    · rw [write_ne (nk (by simp)), h1 _ (fun i _ => nk (by simp)), hd2, write_same (a := a)]
      · rfl
      · rw [hd1, write_ne (nk (by simp)), ha]
    · rw [write_same (a := a)]
      · rfl
      · rw [h1 _ (fun i _ => nk (by simp)), hd2, write_ne (nk (by simp)), hd1, write_ne (nk (by simp)), ha]
    · rw [write_ne (nk (by simp)), h2 i hi a]
      · rfl
      · rw [hd2, write_ne (nk (by simp)), hd1, write_ne (nk (by simp)), ha]

/-- The names which are stored for `case='2d'`. -/
def S2 (o : OName) : Prop := o = .V ∨ o = .GH ∨ o = .ax 0 ∨ o = .ax 1

/-- Smallest and largest entry, and the fit of the scaled values, for `case='2d'`. -/
noncomputable def fit2 (gg : List ℝ) : Fit2 :=
  g.fit2G g.axes (gg.map (fun v => (v - gg.foldl min (gg.headD 0)) / (gg.foldl max (gg.headD 0) - gg.foldl min (gg.headD 0))))

/-- The values which are stored for `case='2d'`. -/
noncomputable def vals2 (o : OName) (gg : List ℝ) : ℝ :=
  match o with
  | .V => g.volfunc (g.fit2 gg).min
  | .GH => (g.fit2 gg).ev (g.fit2 gg).min * (gg.foldl max (gg.headD 0) - gg.foldl min (gg.headD 0)) + gg.foldl min (gg.headD 0)
  | .ax i => (g.fit2 gg).min.getD i 0
  | .B => 0

theorem store2 (key : OName → Key) (hkey : Function.Injective key) (hc : g.case = .c2) (hn : g.nax = 2) :
    g.StoreSpec key S2 g.vals2 := by
  intro d gg idx _
  unfold fitOptStore
  simp only [hc, hn, ne_eq, not_true_eq_false, if_false]
  have nk : ∀ {p q : OName}, p ≠ q → key p ≠ key q := fun h e => h (hkey e)
  refine ⟨_, rfl, ?_, ?_⟩
  · intro k hk
    rw [write_ne (hk _ (Or.inl rfl)), write_ne (hk _ (Or.inr (Or.inl rfl))), write_ne (hk _ (Or.inr (Or.inr (Or.inr rfl)))),
      write_ne (hk _ (Or.inr (Or.inr (Or.inl rfl))))]
  · intro o ho a ha
    rcases ho with rfl | rfl | rfl | rfl
    · rw [write_same (a := a)]
      · rfl
      · rw [write_ne (nk (by simp)), write_ne (nk (by simp)), write_ne (nk (by simp)), ha]
    · rw [write_ne (nk (by simp)), write_same (a := a)]
      · rfl
      · rw [write_ne (nk (by simp)), write_ne (nk (by simp)), ha]
    · rw [write_ne (nk (by simp)), write_ne (nk (by simp)), write_ne (nk (by simp)), write_same (a := a) ha]; rfl
    · rw [write_ne (nk (by simp)), write_ne (nk (by simp)), write_same (a := a)]
      · rfl
      · rw [write_ne (nk (by simp)), ha]

theorem loopOpt_spec (key : OName → Key) (S : OName → Prop) (vals : OName → List ℝ → ℝ) (R : Key)
    (hR : ∀ o, S o → R ≠ key o) (hs : g.StoreSpec key S vals) (L : List (List Nat)) (hL : L.Nodup) (d : Dict)
    (hd : ∀ o, S o → ∃ a, d (key o) = some (some a)) :
    ∃ d', g.loopOpt key (g.rowOf R) d L = some d' ∧ (∀ k, (∀ o, S o → k ≠ key o) → d' k = d k) ∧
      ∀ o, S o → ∀ a, d (key o) = some (some a) → ∃ a', d' (key o) = some (some a') ∧ a'.shape = a.shape ∧
        (∀ idx ∈ L, a'.get idx = vals o (g.rowOf R d idx)) ∧ (∀ idx, idx ∉ L → a'.get idx = a.get idx) := by
  induction L generalizing d with
  | nil => exact ⟨d, rfl, fun _ _ => rfl, fun o _ a ha => ⟨a, ha, rfl, by simp, fun _ _ => rfl⟩⟩
  | cons x rest ih =>
    simp only [List.nodup_cons] at hL
    obtain ⟨d1, s1, s2, s3⟩ := hs d (g.rowOf R d x) x hd
    obtain ⟨d', t1, t2, t3⟩ := ih hL.2 d1 (fun o ho => by
      obtain ⟨a, ha⟩ := hd o ho
      exact ⟨_, s3 o ho a ha⟩)
    have hrow : ∀ idx, g.rowOf R d1 idx = g.rowOf R d idx := by
      intro idx; unfold rowOf; rw [s2 R hR]
    refine ⟨d', by simp only [loopOpt, s1, t1], fun k hk => (t2 k hk).trans (s2 k hk), fun o ho a ha => ?_⟩
    obtain ⟨a', e1, e2, e3, e4⟩ := t3 o ho _ (s3 o ho a ha)
    refine ⟨a', e1, e2, fun idx hidx => ?_, fun idx hidx => ?_⟩
    · rcases List.mem_cons.1 hidx with rfl | hidx
      · rw [e4 _ hL.1]; simp [setAt]
      · rw [e3 idx hidx, hrow]
    · simp only [List.mem_cons, not_or] at hidx
      rw [e4 idx hidx.2]; simp [setAt, hidx.1]

theorem fitOptStore_frame (key : OName → Key) (hkey : Function.Injective key) (d d' : Dict) (gg : List ℝ) (idx : List Nat)
    (h : g.fitOptStore key d gg idx = some d') (k : Key) (hk : ∀ o, k ≠ key o) : d' k = d k := by
  unfold fitOptStore at h
  cases hc : g.case <;> simp only [hc] at h
  · cases h
    rw [write_ne (hk _), (axLoop key hkey g.nax _ idx _).1 k (fun i _ => hk _), write_ne (hk _), write_ne (hk _)]
  · split at h
    · simp at h
    · cases h
      rw [write_ne (hk _), write_ne (hk _), write_ne (hk _), write_ne (hk _)]
  · simp at h
  · simp at h

theorem loopOpt_frame (key : OName → Key) (hkey : Function.Injective key) (row : Dict → List Nat → List ℝ) (L : List (List Nat)) (d d' : Dict)
    (h : g.loopOpt key row d L = some d') (k : Key) (hk : ∀ o, k ≠ key o) : d' k = d k := by
  induction L generalizing d with
  | nil => simp only [loopOpt, Option.some.injEq] at h; rw [h]
  | cons x rest ih =>
    simp only [loopOpt] at h
    cases hf : g.fitOptStore key d (row d x) x with
    | none => simp [hf] at h
    | some d1 =>
      simp only [hf] at h
      rw [ih d1 h, g.fitOptStore_frame key hkey d d1 _ _ hf k hk]

theorem addOpt_ne (key : OName → Key) (shape : List Nat) (d : Dict) (k : Key) (hk : ∀ o, k ≠ key o) :
    addOpt junk key shape d k = d k := by
  simp [addOpt, set_ne (hk _)]

theorem addOpt_same (key : OName → Key) (hkey : Function.Injective key) (shape : List Nat) (d : Dict) (o : OName)
    (ho : o ∈ [OName.ax 0, .ax 1, .ax 2, .V, .GH, .B]) : addOpt junk key shape d (key o) = some (some (empty junk shape)) := by
  simp only [List.mem_cons, List.not_mem_nil, or_false] at ho
  rcases ho with rfl | rfl | rfl | rfl | rfl | rfl <;> simp [addOpt, Dict.set, hkey.eq_iff]

theorem setNotCalcNone_ne (key : OName → Key) (d : Dict) (k : Key) (hk : ∀ o, k ≠ key o) : g.setNotCalcNone key d k = d k := by
  unfold setNotCalcNone
  split
  · rw [set_ne (hk _), set_ne (hk _)]
  · split
    · split
      · rw [set_ne (hk _), set_ne (hk _)]
      · rw [set_ne (hk _)]
    · rfl

theorem setNotCalcNone_S1 (key : OName → Key) (hkey : Function.Injective key) (d : Dict) (hc : g.case = .c1) (o : OName) (ho : g.S1 o) :
    g.setNotCalcNone key d (key o) = d (key o) := by
  have nk : ∀ {p q : OName}, p ≠ q → key p ≠ key q := fun h e => h (hkey e)
  unfold setNotCalcNone
  split
  · rename_i h
    rw [set_ne, set_ne]
    · apply nk; rintro rfl; simp [S1, h] at ho
    · apply nk; rintro rfl; simp [S1, h] at ho
  · split
    · rename_i h
      simp only [hc, ne_eq, not_true_eq_false, if_false]
      rw [set_ne]
      apply nk; rintro rfl; simp [S1, h] at ho
    · rfl

theorem setNotCalcNone_S2 (key : OName → Key) (hkey : Function.Injective key) (d : Dict) (hn : g.nax = 2) (o : OName) (ho : S2 o) :
    g.setNotCalcNone key d (key o) = d (key o) := by
  have nk : ∀ {p q : OName}, p ≠ q → key p ≠ key q := fun h e => h (hkey e)
  unfold setNotCalcNone
  rw [hn, if_neg (by decide), if_pos rfl]
  have h1 : o ≠ .ax 2 := by rintro rfl; simp [S2] at ho
  have h2 : o ≠ .B := by rintro rfl; simp [S2] at ho
  split
  · rw [set_ne (nk h2), set_ne (nk h1)]
  · rw [set_ne (nk h1)]

theorem optP_inj : Function.Injective Key.optP := fun a b h => by simpa using h
theorem optTP_inj : Function.Injective Key.optTP := fun a b h => by simpa using h

/-- The array `H` before the minima are searched. -/
noncomputable def dictH : Dict :=
  (List.range g.P.length).foldl (fun d p => d.write .PaxH (setRow p (g.addPV g.etot (g.P.getD p 0))))
    (fun k => if k = .PaxH then some (some (empty junk [g.P.length, g.n])) else none)

theorem dictH_spec : (∀ k, k ≠ .PaxH → g.dictH junk k = none) ∧ ∃ a, g.dictH junk .PaxH = some (some a) ∧
    a.shape = [g.P.length, g.n] ∧ ∀ p < g.P.length, ∀ i, a.get [p, i] = (g.addPV g.etot (g.P.getD p 0)).getD i 0 := by
  obtain ⟨h1, a, h2, h3, h4, -⟩ := fillH (List.range g.P.length) List.nodup_range
    (fun k => if k = .PaxH then some (some (empty junk [g.P.length, g.n])) else none) (empty junk [g.P.length, g.n]) (by simp)
    (fun p => g.addPV g.etot (g.P.getD p 0))
  exact ⟨fun k hk => (h1 k hk).trans (by simp [hk]), a, h2, h3, fun p hp i => h4 p (List.mem_range.2 hp) i⟩

theorem calcH_eq (calcAll : Bool) : g.calcH junk calcAll = (if calcAll then
      g.loopOpt .optP (g.rowOf .PaxH) (addOpt junk .optP [g.P.length] (g.dictH junk)) ((List.range g.P.length).map (fun p : Nat => [p]))
    else some (g.dictH junk)).map (fun d => (g.setNotCalcNone .optP d).upd g.base) := rfl

/-- Keys other than the minima come from the array `H` and from the inputs. -/
theorem calcH_frame (calcAll : Bool) (d : Dict) (h : g.calcH junk calcAll = some d) (k : Key) (hk : ∀ o, k ≠ .optP o) :
    d k = (g.dictH junk).upd g.base k := by
  rw [calcH_eq, Option.map_eq_some_iff] at h
  obtain ⟨d1, h1, rfl⟩ := h
  have e : d1 k = g.dictH junk k := by
    cases calcAll
    · simp at h1; rw [h1]
    · simp only [if_true] at h1
      rw [g.loopOpt_frame .optP optP_inj _ _ _ _ h1 k hk, addOpt_ne junk .optP _ _ k hk]
  unfold Dict.upd
  rw [g.setNotCalcNone_ne .optP d1 k hk, e]

/-- **C68** (H). `calc_H` stores an array of shape (number of pressures, number of grid points) with
`H[p,i] = Etot[i] + P[p] V[i]` (with the factor between GPa Ang³ and eV), and `V[i]` is the volume at grid
point `i`. -/
theorem C68_H (calcAll : Bool) (h2 : g.axes.length = g.etot.length) (d : Dict) (h : g.calcH junk calcAll = some d) :
    ∃ a, d .PaxH = some (some a) ∧ a.shape = [g.P.length, g.axes.length] ∧
      ∀ p (hp : p < g.P.length) i (hi : i < g.axes.length) (hi' : i < g.etot.length),
        a.get [p, i] = g.etot[i] + g.P[p] * g.volfunc g.axes[i] / g.conv := by
  obtain ⟨-, a, e1, e2, e3⟩ := g.dictH_spec junk
  refine ⟨a, ?_, e2, ?_⟩
  · rw [g.calcH_frame junk calcAll d h .PaxH (by simp), upd_none rfl, e1]
  · intro p hp i hi hi'
    rw [e3 p hp i, g.addPV_getD _ _ i hi' hi]
    simp [List.getD_eq_getElem?_getD, hp, hi']
    ring

theorem fillG_spec (d : Dict) : (∀ k, k ≠ .TPaxG → g.fillG junk d k = d k) ∧ ∃ a, g.fillG junk d .TPaxG = some (some a) ∧
    a.shape = [g.T.length, g.P.length, g.n] ∧
    ∀ t < g.T.length, ∀ p < g.P.length, ∀ i, a.get [t, p, i] = (g.addPV (g.colF d t) (g.P.getD p 0)).getD i 0 := by
  obtain ⟨h1, a, h2, h3, h4, -⟩ := g.fillG_loop g.tp g.tp_nodup
    (d.set .TPaxG (some (empty junk [g.T.length, g.P.length, g.n]))) _ set_same
  refine ⟨fun k hk => (h1 k hk).trans (set_ne hk), a, h2, h3, fun t ht p hp i => ?_⟩
  rw [h4 t p ((g.mem_tp t p).2 ⟨ht, hp⟩) i]
  have : g.colF (d.set .TPaxG (some (empty junk [g.T.length, g.P.length, g.n]))) t = g.colF d t := by
    unfold colF; rw [set_ne (by decide)]
  rw [this]

theorem alphaStep_frame (d : Dict) (o : OName) (k : Key) (hk : k ≠ .alpha o) : g.alphaStep d o k = d k := by
  have key : ∀ (a : Arr) (L : List Nat) (d : Dict), (L.foldl (fun d p =>
      let x := col a g.T.length p
      let fit := g.fitAlpha g.T x
      d.write (.alpha o) (setCol p (List.zipWith (fun t v => fit.der 1 t / v) g.T x))) d) k = d k := by
    intro a L
    induction L with
    | nil => intro d; rfl
    | cons p L ih => intro d; rw [List.foldl_cons, ih]; exact write_ne hk
  unfold alphaStep
  rcases d (.optTP o) with _ | _ | a
  · exact set_ne hk
  · exact set_ne hk
  · exact key a _ d

theorem cpStep_frame (d : Dict) (k : Key) (hk : k ≠ .Cp) : g.cpStep junk d k = d k := by
  unfold cpStep
  generalize List.range g.P.length = L
  have : ∀ (a : Arr) (d' : Dict), d' k = d k → (L.foldl (fun d p =>
      let fit := g.fitC g.T ((col a g.T.length p).map (fun v => v * g.c.eV / g.c.kb))
      d.write .Cp (setCol p (g.T.map (fun t => -t * fit.der 2 t)))) d') k = d k := by
    intro a d' hd'
    induction L generalizing d' with
    | nil => exact hd'
    | cons p L ih => rw [List.foldl_cons]; exact ih _ ((write_ne hk).trans hd')
  exact this _ _ (set_ne hk)

theorem thermal_frame (d : Dict) (k : Key) (hk : ∀ o, k ≠ .alpha o) (hk' : k ≠ .Cp) : g.thermal junk d k = d k := by
  unfold thermal
  simp only [List.foldl_cons, List.foldl_nil]
  rw [g.cpStep_frame junk _ k hk', g.alphaStep_frame _ _ k (hk _), g.alphaStep_frame _ _ k (hk _), g.alphaStep_frame _ _ k (hk _),
    g.alphaStep_frame _ _ k (hk _), set_ne (hk _), set_ne (hk _), set_ne (hk _), set_ne (hk _)]

theorem optG_frame (d d' : Dict) (h : g.optG junk d = some d') (k : Key) (hk : ∀ o, k ≠ .optTP o) (hk2 : ∀ o, k ≠ .optP o)
    (hk3 : k ≠ .PaxH) (hk4 : g.base k = none) : d' k = d k := by
  unfold optG at h
  cases hh : g.calcH junk true with
  | none => simp [hh] at h
  | some hd =>
    simp only [hh, Option.map_eq_some_iff] at h
    obtain ⟨d1, h1, rfl⟩ := h
    rw [g.setNotCalcNone_ne _ _ k hk, g.loopOpt_frame .optTP optTP_inj _ _ _ _ h1 k hk, addOpt_ne junk _ _ _ k hk, upd_none]
    rw [g.calcH_frame junk true hd hh k hk2, upd_none hk4]
    exact (g.dictH_spec junk).1 k hk3

/-- The first result of `calc_G`. -/
theorem calcG_cases (ret : Option Dict) (calcAll : Bool) (d : Dict) (h : g.calcG junk ret calcAll = some d) :
    ∃ d0 a, g.startG junk ret calcAll = some d0 ∧ d0 (.axT .F) = some (some a) ∧
      a.shape = [g.n, g.T.length] ∧ (if calcAll then (g.optG junk (g.fillG junk d0)).map (g.thermal junk) else
        some (g.fillG junk d0)).map (fun d => d.upd g.base) = some d := by
  unfold calcG at h
  split at h
  · simp at h
  · rename_i d0 h0
    split at h
    · rename_i a ha
      split at h
      · simp at h
      · rename_i hs
        exact ⟨d0, a, h0, ha, by simpa using hs, h⟩
    · simp at h

theorem calcG_frame (d0 d : Dict) (calcAll : Bool)
    (h : (if calcAll then (g.optG junk (g.fillG junk d0)).map (g.thermal junk) else
        some (g.fillG junk d0)).map (fun d => d.upd g.base) = some d) (k : Key)
    (hk : ∀ o, k ≠ .optTP o) (hk2 : ∀ o, k ≠ .optP o) (hk3 : k ≠ .PaxH) (hk4 : g.base k = none)
    (hk5 : ∀ o, k ≠ .alpha o) (hk6 : k ≠ .Cp) : d k = g.fillG junk d0 k := by
  rw [Option.map_eq_some_iff] at h
  obtain ⟨d1, h1, rfl⟩ := h
  rw [upd_none hk4]
  cases calcAll
  · simp at h1; rw [h1]
  · simp only [if_true, Option.map_eq_some_iff] at h1
    obtain ⟨d2, h2, rfl⟩ := h1
    rw [g.thermal_frame junk _ k hk5 hk6, g.optG_frame junk _ _ h2 k hk hk2 hk3 hk4]

theorem startG_iff (ret : Option Dict) (calcAll : Bool) (d0 : Dict) :
    g.startG junk ret calcAll = some d0 ↔ (ret = some d0 ∨ (ret = none ∧ g.calcF junk calcAll = some d0)) := by
  cases ret <;> simp [startG]

/-- **C68** (G). `calc_G` stores an array of shape (temperatures, pressures, grid points) with
`G[t,p,i] = F[i,t] + P[p] V[i]`, where `F` is the array of `calc_F`, or the one given by the caller (which
may contain further contributions). `F` and all other entries given by the caller are kept. -/
theorem C68_G (ret : Option Dict) (calcAll : Bool) (d : Dict) (h : g.calcG junk ret calcAll = some d) :
    ∃ d0 F a, (ret = some d0 ∨ (ret = none ∧ g.calcF junk calcAll = some d0)) ∧ d0 (.axT .F) = some (some F) ∧
      d (.axT .F) = some (some F) ∧ (∀ n, d (.axT n) = d0 (.axT n)) ∧ (∀ s, d (.other s) = d0 (.other s)) ∧
      d .TPaxG = some (some a) ∧ a.shape = [g.T.length, g.P.length, g.axes.length] ∧
      ∀ t, t < g.T.length → ∀ p (hp : p < g.P.length) i (hi : i < g.axes.length),
        a.get [t, p, i] = F.get [i, t] + g.P[p] * g.volfunc g.axes[i] / g.conv := by
  obtain ⟨d0, F, h0, hF, _, hrest⟩ := g.calcG_cases junk ret calcAll d h
  obtain ⟨f1, a, f2, f3, f4⟩ := g.fillG_spec junk d0
  have fr := g.calcG_frame junk d0 d calcAll hrest
  refine ⟨d0, F, a, (g.startG_iff junk ret calcAll d0).1 h0, hF, ?_, ?_, ?_, ?_, f3, ?_⟩
  · rw [fr (.axT .F) (by simp) (by simp) (by simp) rfl (by simp) (by simp), f1 _ (by simp), hF]
  · intro n
    rw [fr (.axT n) (by simp) (by simp) (by simp) rfl (by simp) (by simp), f1 _ (by simp)]
  · intro s
    rw [fr (.other s) (by simp) (by simp) (by simp) rfl (by simp) (by simp), f1 _ (by simp)]
  · rw [fr .TPaxG (by simp) (by simp) (by simp) rfl (by simp) (by simp), f2]
  · intro t ht p hp i hi
    have hi' : i < g.n := hi
    rw [f4 t ht p hp i, g.addPV_getD _ _ i (by simp [colF, hF, hi']) hi]
    simp [colF, hF, hi', List.getD_eq_getElem?_getD, hp]
    ring

/-- **C68** (inputs). Each of the three results contains the inputs. -/
theorem C68_inputs (ret : Option Dict) (calcAll : Bool) (d : Dict)
    (h : g.calcF junk calcAll = some d ∨ g.calcH junk calcAll = some d ∨ g.calcG junk ret calcAll = some d)
    (k : Key) (hk : k = .T ∨ k = .P ∨ k = .ax ∨ k = .V ∨ k = .etot) : d k = g.base k := by
  have key : ∃ d' : Dict, d = d'.upd g.base := by
    rcases h with h | h | h
    · unfold calcF at h
      simp only [Option.map_eq_some_iff] at h
      obtain ⟨d', -, rfl⟩ := h
      exact ⟨d', rfl⟩
    · rw [calcH_eq, Option.map_eq_some_iff] at h
      obtain ⟨d', -, rfl⟩ := h
      exact ⟨_, rfl⟩
    · obtain ⟨d0, F, h0, hF, _, hrest⟩ := g.calcG_cases junk ret calcAll d h
      rw [Option.map_eq_some_iff] at hrest
      obtain ⟨d', -, rfl⟩ := hrest
      exact ⟨_, rfl⟩
  obtain ⟨d', rfl⟩ := key
  rcases hk with rfl | rfl | rfl | rfl | rfl <;> exact upd_some rfl

/-- **C68** (inputs, entry by entry). In each of the three results the entries `T`, `P`, `ax`, `V` and `etot` hold, in
input order, the temperatures, the pressures, the axis points, the volume `volfunc` of each axis point and the energies. -/
theorem C68_inputs_values (ret : Option Dict) (calcAll : Bool) (d : Dict)
    (h : g.calcF junk calcAll = some d ∨ g.calcH junk calcAll = some d ∨ g.calcG junk ret calcAll = some d) :
    (∃ a, d .T = some (some a) ∧ a.shape = [g.T.length] ∧ ∀ (i : Nat) (x : ℝ), g.T[i]? = some x → a.get [i] = x) ∧
    (∃ a, d .P = some (some a) ∧ a.shape = [g.P.length] ∧ ∀ (i : Nat) (x : ℝ), g.P[i]? = some x → a.get [i] = x) ∧
    (∃ a, d .ax = some (some a) ∧ a.shape = [g.axes.length, g.nax] ∧
      ∀ (i j : Nat) (row : List ℝ) (x : ℝ), g.axes[i]? = some row → row[j]? = some x → a.get [i, j] = x) ∧
    (∃ a, d .V = some (some a) ∧ a.shape = [g.axes.length] ∧
      ∀ (i : Nat) (row : List ℝ), g.axes[i]? = some row → a.get [i] = g.volfunc row) ∧
    (∃ a, d .etot = some (some a) ∧ a.shape = [g.axes.length] ∧
      ∀ (i : Nat) (x : ℝ), g.etot[i]? = some x → a.get [i] = x) := by
  have hk := g.C68_inputs junk ret calcAll d h
  refine ⟨⟨_, hk .T (by simp), rfl, ?_⟩, ⟨_, hk .P (by simp), rfl, ?_⟩, ⟨_, hk .ax (by simp), rfl, ?_⟩,
    ⟨_, hk .V (by simp), rfl, ?_⟩, ⟨_, hk .etot (by simp), rfl, ?_⟩⟩
  · intro i x hx; simp [List.getD_eq_getElem?_getD, hx]
  · intro i x hx; simp [List.getD_eq_getElem?_getD, hx]
  · intro i j row x hr hx; simp [List.getD_eq_getElem?_getD, hr, hx]
  · intro i row hr; simp [List.getD_eq_getElem?_getD, vols, hr]
  · intro i x hx; simp [List.getD_eq_getElem?_getD, hx]

theorem fillCol (K : Key) (col : Nat → List ℝ) (L : List Nat) (hL : L.Nodup) (d : Dict) (a : Arr) (h : d K = some (some a)) :
    ∃ a', (L.foldl (fun d p => d.write K (setCol p (col p))) d) K = some (some a') ∧ a'.shape = a.shape ∧
      (∀ p ∈ L, ∀ t, a'.get [t, p] = (col p).getD t 0) ∧ (∀ p, p ∉ L → ∀ t, a'.get [t, p] = a.get [t, p]) := by
  induction L generalizing d a with
  | nil => exact ⟨a, h, rfl, by simp, fun _ _ _ => rfl⟩
  | cons p0 rest ih =>
    simp only [List.nodup_cons] at hL
    obtain ⟨a', e1, e2, e3, e4⟩ := ih hL.2 (d.write K (setCol p0 (col p0))) (setCol p0 (col p0) a) (write_same h)
    simp only [List.foldl_cons]
    refine ⟨a', e1, e2, ?_, ?_⟩
    · intro p hp t
      rcases List.mem_cons.1 hp with rfl | hp
      · rw [e4 _ hL.1]; simp [setCol]
      · exact e3 p hp t
    · intro p hp t
      simp only [List.mem_cons, not_or] at hp
      rw [e4 p hp.2]
      simp [setCol, hp.1]

/-- The dictionary just before the thermal expansion, for a set of stored names. -/
theorem optG_spec (S : OName → Prop) (vals : OName → List ℝ → ℝ) (hsP : g.StoreSpec .optP S vals) (hs : g.StoreSpec .optTP S vals)
    (hS : ∀ o, S o → o ∈ [OName.ax 0, .ax 1, .ax 2, .V, .GH, .B])
    (hk : ∀ d o, S o → g.setNotCalcNone .optTP d (.optTP o) = d (.optTP o))
    (hkP : ∀ d o, S o → g.setNotCalcNone .optP d (.optP o) = d (.optP o)) (d : Dict) :
    ∃ d', g.optG junk d = some d' ∧ ∀ o, S o → (∃ a, d' (.optTP o) = some (some a) ∧ a.shape = [g.T.length, g.P.length] ∧
      ∀ t < g.T.length, ∀ p < g.P.length, a.get [t, p] = vals o (g.rowOf .TPaxG d [t, p])) ∧
      (∃ a, d' (.optP o) = some (some a) ∧ a.shape = [g.P.length] ∧
      ∀ p < g.P.length, a.get [p] = vals o (g.rowOf .PaxH (g.dictH junk) [p])) := by
  have hH : ∃ hd, g.calcH junk true = some hd ∧ ∀ o, S o → (∃ a, hd (.optP o) = some (some a) ∧ a.shape = [g.P.length] ∧
      ∀ p < g.P.length, a.get [p] = vals o (g.rowOf .PaxH (g.dictH junk) [p])) := by
    rw [calcH_eq]
    simp only [if_true]
    obtain ⟨d1, l1, -, l3⟩ := g.loopOpt_spec .optP S vals .PaxH (by simp) hsP ((List.range g.P.length).map (fun p : Nat => [p]))
      ((List.nodup_range).map (fun a b h => by simpa using h)) (addOpt junk .optP [g.P.length] (g.dictH junk))
      (fun o ho => ⟨_, addOpt_same junk .optP optP_inj _ _ o (hS o ho)⟩)
    refine ⟨(g.setNotCalcNone .optP d1).upd g.base, by rw [l1]; rfl, fun o ho => ?_⟩
    obtain ⟨a, a1, a2, a3, -⟩ := l3 o ho _ (addOpt_same junk .optP optP_inj _ _ o (hS o ho))
    refine ⟨a, by rw [upd_none rfl, hkP _ o ho, a1], a2, fun p hp => ?_⟩
    rw [a3 [p] (by simpa using hp)]
    unfold rowOf
    rw [addOpt_ne junk .optP _ _ .PaxH (by simp)]
  obtain ⟨hd, h1, h2⟩ := hH
  unfold optG
  simp only [h1]
  obtain ⟨d1, l1, l2, l3⟩ := g.loopOpt_spec .optTP S vals .TPaxG (by simp) hs (g.tp.map (fun tp => [tp.1, tp.2]))
      ((g.tp_nodup).map (fun a b h => by simp at h; exact Prod.ext h.1 h.2)) (addOpt junk .optTP [g.T.length, g.P.length] (d.upd hd))
      (fun o ho => ⟨_, addOpt_same junk .optTP optTP_inj _ _ o (hS o ho)⟩)
  refine ⟨g.setNotCalcNone .optTP d1, by rw [l1]; rfl, fun o ho => ⟨?_, ?_⟩⟩
  · obtain ⟨a, a1, a2, a3, -⟩ := l3 o ho _ (addOpt_same junk .optTP optTP_inj _ _ o (hS o ho))
    refine ⟨a, by rw [hk _ o ho, a1], a2, fun t ht p hp => ?_⟩
    rw [a3 [t, p] (List.mem_map.2 ⟨(t, p), (g.mem_tp t p).2 ⟨ht, hp⟩, rfl⟩)]
    unfold rowOf
    rw [addOpt_ne junk .optTP _ _ .TPaxG (by simp), upd_none]
    rw [g.calcH_frame junk true hd h1 .TPaxG (by simp), upd_none rfl]
    exact (g.dictH_spec junk).1 _ (by simp)
  · obtain ⟨a, a1, a2, a3⟩ := h2 o ho
    refine ⟨a, ?_, a2, a3⟩
    rw [g.setNotCalcNone_ne _ _ _ (by simp), l2 _ (by simp), addOpt_ne junk .optTP _ _ _ (by simp), upd_some a1]

theorem alphaStep_spec (d : Dict) (o : OName) (a b : Arr) (ha : d (.optTP o) = some (some a)) (hb : d (.alpha o) = some (some b)) :
    ∃ b', g.alphaStep d o (.alpha o) = some (some b') ∧ b'.shape = b.shape ∧
      ∀ t (ht : t < g.T.length), ∀ p < g.P.length, b'.get [t, p] = (g.fitAlpha g.T (col a g.T.length p)).der 1 g.T[t] / a.get [t, p] := by
  unfold alphaStep
  rw [ha]
  obtain ⟨b', e1, e2, e3, -⟩ := fillCol (.alpha o) (fun p => List.zipWith (fun t v => (g.fitAlpha g.T (col a g.T.length p)).der 1 t / v) g.T (col a g.T.length p))
    (List.range g.P.length) List.nodup_range d b hb
  refine ⟨b', e1, e2, fun t ht p hp => ?_⟩
  rw [e3 p (List.mem_range.2 hp) t]
  simp [col, List.getD_eq_getElem?_getD, ht]

theorem cpStep_spec (d : Dict) (a : Arr) (ha : d (.optTP .GH) = some (some a)) :
    ∃ b', g.cpStep junk d .Cp = some (some b') ∧ b'.shape = [g.T.length, g.P.length] ∧
      ∀ t (ht : t < g.T.length), ∀ p < g.P.length, b'.get [t, p] =
        -g.T[t] * (g.fitC g.T ((col a g.T.length p).map (fun v => v * g.c.eV / g.c.kb))).der 2 g.T[t] := by
  unfold cpStep
  rw [ha]
  obtain ⟨b', e1, e2, e3, -⟩ := fillCol .Cp (fun p => g.T.map (fun t => -t * (g.fitC g.T ((col a g.T.length p).map (fun v => v * g.c.eV / g.c.kb))).der 2 t))
    (List.range g.P.length) List.nodup_range (d.set .Cp (some (empty junk [g.T.length, g.P.length]))) _ set_same
  refine ⟨b', e1, e2, fun t ht p hp => ?_⟩
  rw [e3 p (List.mem_range.2 hp) t]
  simp [List.getD_eq_getElem?_getD, ht]

theorem thermal_spec (d : Dict) (o : OName) (ho : o ∈ [OName.ax 0, .ax 1, .ax 2, .V]) (a : Arr) (ha : d (.optTP o) = some (some a)) :
    ∃ b, g.thermal junk d (.alpha o) = some (some b) ∧ b.shape = [g.T.length, g.P.length] ∧
      ∀ t (ht : t < g.T.length), ∀ p < g.P.length, b.get [t, p] = (g.fitAlpha g.T (col a g.T.length p)).der 1 g.T[t] / a.get [t, p] := by
  have gen : ∀ (l1 l2 : List OName) (d : Dict) (b : Arr), o ∉ l1 → o ∉ l2 → d (.optTP o) = some (some a) → d (.alpha o) = some (some b) →
      ∃ b', (l1 ++ o :: l2).foldl g.alphaStep d (.alpha o) = some (some b') ∧ b'.shape = b.shape ∧
        ∀ t (ht : t < g.T.length), ∀ p < g.P.length, b'.get [t, p] = (g.fitAlpha g.T (col a g.T.length p)).der 1 g.T[t] / a.get [t, p] := by
    intro l1 l2
    induction l1 with
    | nil =>
      intro d b _ h2 ha hb
      obtain ⟨b', e1, e2, e3⟩ := g.alphaStep_spec d o a b ha hb
      refine ⟨b', ?_, e2, e3⟩
      simp only [List.nil_append, List.foldl_cons]
      have : ∀ (l : List OName) (d : Dict), o ∉ l → l.foldl g.alphaStep d (.alpha o) = d (.alpha o) := by
        intro l
        induction l with
        | nil => intros; rfl
        | cons x l ih =>
          intro d h
          simp only [List.mem_cons, not_or] at h
          rw [List.foldl_cons, ih _ h.2, g.alphaStep_frame _ _ _ (by simpa using h.1)]
      rw [this l2 _ h2, e1]
    | cons x l1 ih =>
      intro d b h1 h2 ha hb
      simp only [List.mem_cons, not_or] at h1
      simp only [List.cons_append, List.foldl_cons]
      apply ih _ b h1.2 h2
      · rw [g.alphaStep_frame _ _ _ (by simp), ha]
      · rw [g.alphaStep_frame _ _ _ (by simpa using h1.1), hb]
  unfold thermal
  have h0 : ∀ d : Dict, ([OName.ax 0, .ax 1, .ax 2, .V].foldl (fun d o => d.set (.alpha o) (some (empty junk [g.T.length, g.P.length]))) d) (.alpha o)
      = some (some (empty junk [g.T.length, g.P.length])) := by
    intro d
    simp only [List.mem_cons, List.not_mem_nil, or_false] at ho
    rcases ho with rfl | rfl | rfl | rfl <;> simp [Dict.set]
  have h1 : ([OName.ax 0, .ax 1, .ax 2, .V].foldl (fun d o => d.set (.alpha o) (some (empty junk [g.T.length, g.P.length]))) d) (.optTP o)
      = some (some a) := by
    simp [Dict.set, ha]
  rw [g.cpStep_frame junk _ _ (by simp)]
  simp only [List.mem_cons, List.not_mem_nil, or_false] at ho
  rcases ho with rfl | rfl | rfl | rfl
  · exact gen [] [.ax 1, .ax 2, .V] _ _ (by simp) (by simp) h1 (h0 d)
  · exact gen [.ax 0] [.ax 2, .V] _ _ (by simp) (by simp) h1 (h0 d)
  · exact gen [.ax 0, .ax 1] [.V] _ _ (by simp) (by simp) h1 (h0 d)
  · exact gen [.ax 0, .ax 1, .ax 2] [] _ _ (by simp) (by simp) h1 (h0 d)

theorem thermal_cp (d : Dict) (a : Arr) (ha : d (.optTP .GH) = some (some a)) :
    ∃ b', g.thermal junk d .Cp = some (some b') ∧ b'.shape = [g.T.length, g.P.length] ∧
      ∀ t (ht : t < g.T.length), ∀ p < g.P.length, b'.get [t, p] =
        -g.T[t] * (g.fitC g.T ((col a g.T.length p).map (fun v => v * g.c.eV / g.c.kb))).der 2 g.T[t] := by
  unfold thermal
  apply g.cpStep_spec junk _ a
  simp only [List.foldl_cons, List.foldl_nil]
  rw [g.alphaStep_frame _ _ _ (by simp), g.alphaStep_frame _ _ _ (by simp), g.alphaStep_frame _ _ _ (by simp), g.alphaStep_frame _ _ _ (by simp)]
  simp [Dict.set, ha]

/-- What `calc_G` says about the minima, given the stored names and values. -/
theorem calcG_opt (S : OName → Prop) (vals : OName → List ℝ → ℝ) (hsP : g.StoreSpec .optP S vals) (hs : g.StoreSpec .optTP S vals)
    (hS : ∀ o, S o → o ∈ [OName.ax 0, .ax 1, .ax 2, .V, .GH, .B])
    (hk : ∀ d o, S o → g.setNotCalcNone .optTP d (.optTP o) = d (.optTP o))
    (hkP : ∀ d o, S o → g.setNotCalcNone .optP d (.optP o) = d (.optP o))
    (ret : Option Dict) (d0 : Dict) (F : Arr) (h0 : ret = some d0 ∨ (ret = none ∧ g.calcF junk true = some d0))
    (hF : d0 (.axT .F) = some (some F)) (hsh : F.shape = [g.axes.length, g.T.length]) :
    ∃ d G H, g.calcG junk ret true = some d ∧ d .TPaxG = some (some G) ∧ d .PaxH = some (some H) ∧ ∀ o, S o →
      (∃ a, d (.optTP o) = some (some a) ∧ a.shape = [g.T.length, g.P.length] ∧
        (∀ t < g.T.length, ∀ p < g.P.length, a.get [t, p] = vals o ((List.range g.axes.length).map (fun i : Nat => G.get [t, p, i]))) ∧
        (o ∈ [OName.ax 0, .ax 1, .ax 2, .V] → ∃ b, d (.alpha o) = some (some b) ∧ b.shape = [g.T.length, g.P.length] ∧
          ∀ t (ht : t < g.T.length), ∀ p < g.P.length, b.get [t, p] =
            (g.fitAlpha g.T ((List.range g.T.length).map (fun t : Nat => a.get [t, p]))).der 1 g.T[t] / a.get [t, p]) ∧
        (o = .GH → ∃ b, d .Cp = some (some b) ∧ b.shape = [g.T.length, g.P.length] ∧
          ∀ t (ht : t < g.T.length), ∀ p < g.P.length, b.get [t, p] =
            -g.T[t] * (g.fitC g.T ((List.range g.T.length).map (fun t : Nat => a.get [t, p] * g.c.eV / g.c.kb))).der 2 g.T[t])) ∧
      (∃ a, d (.optP o) = some (some a) ∧ a.shape = [g.P.length] ∧
        ∀ p < g.P.length, a.get [p] = vals o ((List.range g.axes.length).map (fun i : Nat => H.get [p, i]))) := by
  replace h0 := (g.startG_iff junk ret true d0).2 h0
  obtain ⟨f1, G, f2, f3, f4⟩ := g.fillG_spec junk d0
  obtain ⟨d1, o1, o2⟩ := g.optG_spec junk S vals hsP hs hS hk hkP (g.fillG junk d0)
  obtain ⟨hh1, H, hh2, hh3, hh4⟩ := g.dictH_spec junk
  have hcalc : g.calcG junk ret true = some ((g.thermal junk d1).upd g.base) := by
    unfold calcG
    have : F.shape = [g.n, g.T.length] := hsh
    simp only [h0, hF, this, ne_eq, not_true_eq_false, if_false, if_true, o1]
    rfl
  refine ⟨(g.thermal junk d1).upd g.base, G, H, hcalc, ?_, ?_, ?_⟩
  · rw [upd_none rfl, g.thermal_frame junk _ _ (by simp) (by simp), g.optG_frame junk _ _ o1 .TPaxG (by simp) (by simp) (by simp) rfl, f2]
  · rw [upd_none rfl, g.thermal_frame junk _ _ (by simp) (by simp)]
    unfold optG at o1
    cases hc : g.calcH junk true with
    | none => simp [hc] at o1
    | some hd =>
      simp only [hc, Option.map_eq_some_iff] at o1
      obtain ⟨d2, l1, rfl⟩ := o1
      rw [g.setNotCalcNone_ne _ _ _ (by simp), g.loopOpt_frame .optTP optTP_inj _ _ _ _ l1 _ (by simp), addOpt_ne junk _ _ _ _ (by simp)]
      have : hd .PaxH = some (some H) := by
        rw [g.calcH_frame junk true hd hc .PaxH (by simp), upd_none rfl, hh2]
      exact upd_some this
  · intro o ho
    obtain ⟨⟨a, a1, a2, a3⟩, ⟨b, b1, b2, b3⟩⟩ := o2 o ho
    refine ⟨⟨a, ?_, a2, ?_, ?_, ?_⟩, ⟨b, ?_, b2, ?_⟩⟩
    · rw [upd_none rfl, g.thermal_frame junk _ _ (by simp) (by simp), a1]
    · intro t ht p hp
      rw [a3 t ht p hp]
      simp [rowOf, f2, n]
    · intro hoa
      obtain ⟨b, e1, e2, e3⟩ := g.thermal_spec junk d1 o hoa a a1
      exact ⟨b, by rw [upd_none rfl, e1], e2, e3⟩
    · rintro rfl
      obtain ⟨b, e1, e2, e3⟩ := g.thermal_cp junk d1 a a1
      refine ⟨b, by rw [upd_none rfl, e1], e2, fun t ht p hp => ?_⟩
      rw [e3 t ht p hp]
      simp [col, Function.comp_def]
    · rw [upd_none rfl, g.thermal_frame junk _ _ (by simp) (by simp), b1]
    · intro p hp
      rw [b3 p hp]
      simp [rowOf, hh2, n]

/-- **C68** (minima, one volume axis). With `case='1d'` (also for two or three varied axes) and an `F` array
of the right shape, `calc_G(calc_all=True)` succeeds. At each `[t,p]` it stores the minimum of the fit of
`G[t,p,:]` over the volumes, the fitted `G` and the axes there, `B = V G''(V)`; along `T` it stores
`alpha_x = x'(T)/x(T)` of the fit of `x(T)` and `Cp = -T G''(T)` in units of kb; and at each `[p]` the
same minima for `H[p,:]`. No uninitialised value is used: `junk` does not matter. -/
theorem C68_opt_1d (hc : g.case = .c1) (hn : 1 ≤ g.nax ∧ g.nax ≤ 3)
    (ret : Option Dict) (d0 : Dict) (F : Arr) (h0 : ret = some d0 ∨ (ret = none ∧ g.calcF junk true = some d0))
    (hF : d0 (.axT .F) = some (some F)) (hsh : F.shape = [g.axes.length, g.T.length]) :
    ∃ d G H, g.calcG junk ret true = some d ∧ d .TPaxG = some (some G) ∧ d .PaxH = some (some H) ∧
      ∀ o, (o = .V ∨ o = .GH ∨ o = .B ∨ ∃ i, i < g.nax ∧ o = .ax i) →
      ∃ val : List ℝ → ℝ, (∀ gg, let fit := g.fit1G (g.axes.map g.volfunc) gg
        val gg = match o with
        | .V => fit.min
        | .GH => fit.ev fit.min
        | .B => fit.min * fit.der 2 fit.min * g.conv
        | .ax i => (g.fit1ax (g.axes.map g.volfunc) (g.axes.map (fun r => r.getD i 0))).ev fit.min) ∧
      (∃ a, d (.optTP o) = some (some a) ∧ a.shape = [g.T.length, g.P.length] ∧
        (∀ t < g.T.length, ∀ p < g.P.length, a.get [t, p] = val ((List.range g.axes.length).map (fun i : Nat => G.get [t, p, i]))) ∧
        (o ∈ [OName.ax 0, .ax 1, .ax 2, .V] → ∃ b, d (.alpha o) = some (some b) ∧ b.shape = [g.T.length, g.P.length] ∧
          ∀ t (ht : t < g.T.length), ∀ p < g.P.length, b.get [t, p] =
            (g.fitAlpha g.T ((List.range g.T.length).map (fun t : Nat => a.get [t, p]))).der 1 g.T[t] / a.get [t, p]) ∧
        (o = .GH → ∃ b, d .Cp = some (some b) ∧ b.shape = [g.T.length, g.P.length] ∧
          ∀ t (ht : t < g.T.length), ∀ p < g.P.length, b.get [t, p] =
            -g.T[t] * (g.fitC g.T ((List.range g.T.length).map (fun t : Nat => a.get [t, p] * g.c.eV / g.c.kb))).der 2 g.T[t])) ∧
      (∃ a, d (.optP o) = some (some a) ∧ a.shape = [g.P.length] ∧
        ∀ p < g.P.length, a.get [p] = val ((List.range g.axes.length).map (fun i : Nat => H.get [p, i]))) := by
  obtain ⟨d, G, H, k1, k2, k3, k4⟩ := g.calcG_opt junk g.S1 g.vals1 (g.store1 _ optP_inj hc) (g.store1 _ optTP_inj hc) (by
      rintro o (rfl | rfl | rfl | ⟨i, hi, rfl⟩)
      · simp
      · simp
      · simp
      · have : i = 0 ∨ i = 1 ∨ i = 2 := by omega
        rcases this with rfl | rfl | rfl <;> simp)
    (fun d o ho => g.setNotCalcNone_S1 _ optTP_inj d hc o ho) (fun d o ho => g.setNotCalcNone_S1 _ optP_inj d hc o ho) ret d0 F h0 hF hsh
  refine ⟨d, G, H, k1, k2, k3, fun o ho => ⟨g.vals1 o, fun gg => ?_, k4 o ho⟩⟩
  cases o <;> rfl

/-- **C68** (minima, two axes). With two varied axes: the minimum over the axes of the fit of the scaled
values, mapped back to the scale of `G[t,p,:]`, and the volume at the minimum; `ax2` and `B` are `None`. -/
theorem C68_opt_2d (hc : g.case = .c2) (hn : g.nax = 2)
    (ret : Option Dict) (d0 : Dict) (F : Arr) (h0 : ret = some d0 ∨ (ret = none ∧ g.calcF junk true = some d0))
    (hF : d0 (.axT .F) = some (some F)) (hsh : F.shape = [g.axes.length, g.T.length]) :
    ∃ d G H, g.calcG junk ret true = some d ∧ d .TPaxG = some (some G) ∧ d .PaxH = some (some H) ∧
      ∀ o, (o = .V ∨ o = .GH ∨ o = .ax 0 ∨ o = .ax 1) →
      ∃ val : List ℝ → ℝ, (∀ gg, let mn := gg.foldl min (gg.headD 0)
        let mx := gg.foldl max (gg.headD 0)
        let fit := g.fit2G g.axes (gg.map (fun v => (v - mn) / (mx - mn)))
        val gg = match o with
        | .V => g.volfunc fit.min
        | .GH => fit.ev fit.min * (mx - mn) + mn
        | .ax i => fit.min.getD i 0
        | .B => 0) ∧
      (∃ a, d (.optTP o) = some (some a) ∧ a.shape = [g.T.length, g.P.length] ∧
        (∀ t < g.T.length, ∀ p < g.P.length, a.get [t, p] = val ((List.range g.axes.length).map (fun i : Nat => G.get [t, p, i]))) ∧
        (o ∈ [OName.ax 0, .ax 1, .ax 2, .V] → ∃ b, d (.alpha o) = some (some b) ∧ b.shape = [g.T.length, g.P.length] ∧
          ∀ t (ht : t < g.T.length), ∀ p < g.P.length, b.get [t, p] =
            (g.fitAlpha g.T ((List.range g.T.length).map (fun t : Nat => a.get [t, p]))).der 1 g.T[t] / a.get [t, p]) ∧
        (o = .GH → ∃ b, d .Cp = some (some b) ∧ b.shape = [g.T.length, g.P.length] ∧
          ∀ t (ht : t < g.T.length), ∀ p < g.P.length, b.get [t, p] =
            -g.T[t] * (g.fitC g.T ((List.range g.T.length).map (fun t : Nat => a.get [t, p] * g.c.eV / g.c.kb))).der 2 g.T[t])) ∧
      (∃ a, d (.optP o) = some (some a) ∧ a.shape = [g.P.length] ∧
        ∀ p < g.P.length, a.get [p] = val ((List.range g.axes.length).map (fun i : Nat => H.get [p, i]))) := by
  obtain ⟨d, G, H, k1, k2, k3, k4⟩ := g.calcG_opt junk S2 g.vals2 (g.store2 _ optP_inj hc hn) (g.store2 _ optTP_inj hc hn) (by
      rintro o (rfl | rfl | rfl | rfl) <;> simp)
    (fun d o ho => g.setNotCalcNone_S2 _ optTP_inj d hn o ho) (fun d o ho => g.setNotCalcNone_S2 _ optP_inj d hn o ho) ret d0 F h0 hF hsh
  refine ⟨d, G, H, k1, k2, k3, fun o ho => ⟨g.vals2 o, fun gg => ?_, k4 o ho⟩⟩
  cases o <;> rfl

/-! ## What is not calculated -/

theorem setNotCalcNone_pure (key : OName → Key) (d d' : Dict) (k : Key) (v : Option Arr) (h : g.setNotCalcNone key d k = some v)
    (hd : d k = none) : g.setNotCalcNone key d' k = some v := by
  unfold setNotCalcNone at *
  split
  · rename_i h1
    simp only [h1, if_true, Dict.set] at h ⊢
    split_ifs at h ⊢ <;> simp_all
  · rename_i h1
    simp only [h1, if_false] at h
    split
    · rename_i h2
      simp only [h2, if_true] at h
      split
      · rename_i h3
        simp only [h3, ne_eq, not_false_eq_true, if_true, Dict.set] at h ⊢
        split_ifs at h ⊢ <;> simp_all
      · rename_i h3
        simp only [h3, if_false, Dict.set] at h ⊢
        split_ifs at h ⊢ <;> simp_all
    · rename_i h2
      simp only [h2, if_false] at h
      rw [hd] at h; simp at h

/-- **C68** (None). Quantities which do not exist are `None`: the axes which are not there, and `B` for
`case='2d'`; then the thermal expansion along such an axis is `None`, too. -/
theorem C68_none (ret : Option Dict) (d : Dict) (h : g.calcG junk ret true = some d) :
    (g.nax = 1 → ∀ o, o = .ax 1 ∨ o = .ax 2 → d (.optTP o) = some none ∧ d (.alpha o) = some none ∧ d (.optP o) = some none) ∧
    (g.nax = 2 → d (.optTP (.ax 2)) = some none ∧ d (.alpha (.ax 2)) = some none ∧ d (.optP (.ax 2)) = some none ∧
      (g.case ≠ .c1 → d (.optTP .B) = some none ∧ d (.optP .B) = some none)) := by
  obtain ⟨d0, F, h0, hF, _, hrest⟩ := g.calcG_cases junk ret true d h
  simp only [if_true, Option.map_eq_some_iff] at hrest
  obtain ⟨_, ⟨d2, h2, rfl⟩, rfl⟩ := hrest
  unfold optG at h2
  cases hc : g.calcH junk true with
  | none => simp [hc] at h2
  | some hd =>
    simp only [hc, Option.map_eq_some_iff] at h2
    obtain ⟨d3, h3, rfl⟩ := h2
    have hP : ∀ o v, (∀ d, g.setNotCalcNone .optP d (.optP o) = some v) →
        ((g.thermal junk (g.setNotCalcNone .optTP d3)).upd g.base) (.optP o) = some v := by
      intro o v hv
      rw [upd_none rfl, g.thermal_frame junk _ _ (by simp) (by simp), g.setNotCalcNone_ne _ _ _ (by simp),
        g.loopOpt_frame .optTP optTP_inj _ _ _ _ h3 _ (by simp), addOpt_ne junk _ _ _ _ (by simp)]
      apply upd_some
      rw [calcH_eq, Option.map_eq_some_iff] at hc
      obtain ⟨d4, -, rfl⟩ := hc
      rw [upd_none rfl, hv]
    have hT : ∀ o v, (∀ d, g.setNotCalcNone .optTP d (.optTP o) = some v) →
        ((g.thermal junk (g.setNotCalcNone .optTP d3)).upd g.base) (.optTP o) = some v := by
      intro o v hv
      rw [upd_none rfl, g.thermal_frame junk _ _ (by simp) (by simp), hv]
    have hA : ∀ i, i = 1 ∨ i = 2 → (∀ d, g.setNotCalcNone .optTP d (.optTP (.ax i)) = some none) →
        ((g.thermal junk (g.setNotCalcNone .optTP d3)).upd g.base) (.alpha (.ax i)) = some none := by
      intro i hi hv
      rw [upd_none rfl]
      unfold thermal
      simp only [List.foldl_cons, List.foldl_nil]
      rw [g.cpStep_frame junk _ _ (by simp)]
      have step : ∀ d : Dict, d (.optTP (.ax i)) = some none → g.alphaStep d (.ax i) (.alpha (.ax i)) = some none := by
        intro d hd
        unfold alphaStep
        rw [hd]
        exact set_same
      rcases hi with rfl | rfl
      · rw [g.alphaStep_frame _ _ _ (by simp), g.alphaStep_frame _ _ _ (by simp)]
        apply step
        rw [g.alphaStep_frame _ _ _ (by simp), set_ne (by simp), set_ne (by simp), set_ne (by simp), set_ne (by simp), hv]
      · rw [g.alphaStep_frame _ _ _ (by simp)]
        apply step
        rw [g.alphaStep_frame _ _ _ (by simp), g.alphaStep_frame _ _ _ (by simp), set_ne (by simp), set_ne (by simp), set_ne (by simp), set_ne (by simp), hv]
    refine ⟨fun hn => ?_, fun hn => ⟨?_, ?_, ?_, fun hc => ⟨?_, ?_⟩⟩⟩
    · have t : ∀ (key : OName → Key) (hkey : Function.Injective key) (o : OName), o = .ax 1 ∨ o = .ax 2 → ∀ d, g.setNotCalcNone key d (key o) = some none := by
        rintro key hkey o (rfl | rfl) d <;> simp [setNotCalcNone, hn, Dict.set]
      rintro o ho
      refine ⟨hT o none (t _ optTP_inj o ho), ?_, hP o none (t _ optP_inj o ho)⟩
      rcases ho with rfl | rfl
      · exact hA 1 (by simp) (t _ optTP_inj _ (by simp))
      · exact hA 2 (by simp) (t _ optTP_inj _ (by simp))
    · apply hT; intro d; by_cases hcc : g.case = .c1 <;> simp [setNotCalcNone, hn, hcc, Dict.set]
    · apply hA 2 (by simp); intro d; by_cases hcc : g.case = .c1 <;> simp [setNotCalcNone, hn, hcc, Dict.set]
    · apply hP; intro d; by_cases hcc : g.case = .c1 <;> simp [setNotCalcNone, hn, hcc, Dict.set]
    · apply hT; intro d; simp [setNotCalcNone, hn, hc, Dict.set]
    · apply hP; intro d; simp [setNotCalcNone, hn, hc, Dict.set]

/-! ## `calc_all` only adds keys -/

theorem stepF_F (calcAll : Bool) (d : Dict) (i : Nat) (ha : List ℝ × List ℝ) (n : FName) (hn : n = .F ∨ n = .Fvib) :
    g.stepF calcAll d i ha (.axT n) = (d (.axT n)).map (fun o => o.map (setRow i (g.rowF i ha n))) := by
  rcases hn with rfl | rfl <;> cases calcAll <;> simp [stepF, write_apply, rowF]

theorem loopF_agree (L : List (Nat × (List ℝ × List ℝ))) (d1 d2 e1 e2 : Dict) (n : FName) (hn : n = .F ∨ n = .Fvib)
    (h : d1 (.axT n) = d2 (.axT n)) (h1 : g.loopF true d1 L = some e1) (h2 : g.loopF false d2 L = some e2) :
    e1 (.axT n) = e2 (.axT n) := by
  induction L generalizing d1 d2 with
  | nil =>
    simp only [loopF, Option.some.injEq] at h1 h2
    rw [← h1, ← h2, h]
  | cons x L ih =>
    obtain ⟨i, p⟩ := x
    simp only [loopF] at h1 h2
    cases hh : g.harm p with
    | none => simp [hh] at h1
    | some ha =>
      simp only [hh] at h1 h2
      exact ih _ _ (by rw [g.stepF_F true _ _ _ n hn, g.stepF_F false _ _ _ n hn, h]) h1 h2

theorem calcF_keys (calcAll : Bool) (d : Dict) (h : g.calcF junk calcAll = some d) (k : Key) (hk : d k ≠ none) :
    (∃ n ∈ fnames calcAll, k = .axT n) ∨ g.base k ≠ none := by
  by_contra hcon
  push Not at hcon
  obtain ⟨c1, c2⟩ := hcon
  apply hk
  unfold calcF at h
  simp only [Option.map_eq_some_iff] at h
  obtain ⟨d', h', rfl⟩ := h
  rw [upd_none c2, (g.loopF_spec calcAll _ (range_zip_nodup _ _) _ _ h').1 k c1]
  cases k <;> simp only
  rename_i n
  rw [if_neg]
  intro hn
  exact c1 n hn rfl

theorem calcF_agree (d1 d2 : Dict) (h1 : g.calcF junk true = some d1) (h2 : g.calcF junk false = some d2)
    (n : FName) (hn : n = .F ∨ n = .Fvib) : d1 (.axT n) = d2 (.axT n) := by
  unfold calcF at h1 h2
  simp only [Option.map_eq_some_iff] at h1 h2
  obtain ⟨e1, h1, rfl⟩ := h1
  obtain ⟨e2, h2, rfl⟩ := h2
  rw [upd_none rfl, upd_none rfl]
  refine g.loopF_agree _ _ _ e1 e2 n hn ?_ h1 h2
  rcases hn with rfl | rfl <;> simp

theorem fillG_agree (d1 d2 : Dict) (h : d1 (.axT .F) = d2 (.axT .F)) : g.fillG junk d1 .TPaxG = g.fillG junk d2 .TPaxG := by
  unfold fillG
  have key : ∀ (L : List (Nat × Nat)) (d1 d2 : Dict), d1 (.axT .F) = d2 (.axT .F) → d1 .TPaxG = d2 .TPaxG →
      (L.foldl (fun d tp => d.write .TPaxG (setRow2 tp.1 tp.2 (g.addPV (g.colF d tp.1) (g.P.getD tp.2 0)))) d1) .TPaxG =
      (L.foldl (fun d tp => d.write .TPaxG (setRow2 tp.1 tp.2 (g.addPV (g.colF d tp.1) (g.P.getD tp.2 0)))) d2) .TPaxG := by
    intro L
    induction L with
    | nil => intro d1 d2 _ h; exact h
    | cons x L ih =>
      intro d1 d2 h1 h2
      simp only [List.foldl_cons]
      apply ih
      · rw [write_ne (by decide), write_ne (by decide), h1]
      · rw [write_apply, write_apply, h2]
        simp only [colF, h1]
  exact key _ _ _ (by rw [set_ne (by decide), set_ne (by decide), h]) (by rw [set_same, set_same])

/-- **C68** (calc_all). With `calc_all=True` the results have all the keys they have with
`calc_all=False`, with the same values. -/
theorem C68_calc_all (d1 d2 : Dict)
    (h : (g.calcF junk true = some d1 ∧ g.calcF junk false = some d2) ∨
      (g.calcH junk true = some d1 ∧ g.calcH junk false = some d2) ∨
      (g.calcG junk none true = some d1 ∧ g.calcG junk none false = some d2)) (k : Key) (hk : d2 k ≠ none) : d1 k = d2 k := by
  have hbase : g.base k ≠ none → k = .T ∨ k = .P ∨ k = .ax ∨ k = .V ∨ k = .etot := by
    intro hb; cases k <;> simp [base] at hb ⊢
  rcases h with ⟨h1, h2⟩ | ⟨h1, h2⟩ | ⟨h1, h2⟩
  · rcases g.calcF_keys junk false d2 h2 k hk with ⟨n, hn, rfl⟩ | hb
    · exact g.calcF_agree junk d1 d2 h1 h2 n (by simpa [fnames] using hn)
    · rw [g.C68_inputs junk none true d1 (Or.inl h1) k (hbase hb), g.C68_inputs junk none false d2 (Or.inl h2) k (hbase hb)]
  · by_cases ho : ∃ o, k = .optP o
    · obtain ⟨o, rfl⟩ := ho
      rw [calcH_eq, Option.map_eq_some_iff] at h1 h2
      obtain ⟨e1, -, rfl⟩ := h1
      obtain ⟨e2, h2, rfl⟩ := h2
      simp only [Bool.false_eq_true, if_false, Option.some.injEq] at h2
      subst h2
      rw [upd_none rfl] at hk ⊢
      rw [upd_none rfl]
      obtain ⟨v, hv⟩ := Option.ne_none_iff_exists'.1 hk
      rw [hv, g.setNotCalcNone_pure .optP _ e1 _ v hv ((g.dictH_spec junk).1 _ (by simp))]
    · push Not at ho
      rw [g.calcH_frame junk true d1 h1 k ho, g.calcH_frame junk false d2 h2 k ho]
  · obtain ⟨d0, F, h0, hF, _, hrest⟩ := g.calcG_cases junk none true d1 h1
    obtain ⟨d0', F', h0', hF', _, hrest'⟩ := g.calcG_cases junk none false d2 h2
    by_cases hb : g.base k = none
    · have e2 : d2 k = g.fillG junk d0' k := by
        simp only [Bool.false_eq_true, if_false, Option.map_some, Option.some.injEq] at hrest'
        subst hrest'
        exact upd_none hb
      rw [e2] at hk ⊢
      have hkk : k = .TPaxG ∨ ∃ n, (n = .F ∨ n = .Fvib) ∧ k = .axT n := by
        by_contra hcon
        push Not at hcon
        rw [(g.fillG_spec junk d0').1 k hcon.1] at hk
        rcases g.calcF_keys junk false d0' h0' k hk with ⟨n, hn, e⟩ | hb'
        · exact hcon.2 n (by simpa [fnames] using hn) e
        · exact hb' hb
      rcases hkk with rfl | ⟨n, hn, rfl⟩
      · rw [g.calcG_frame junk d0 d1 true hrest .TPaxG (by simp) (by simp) (by simp) rfl (by simp) (by simp)]
        exact g.fillG_agree junk d0 d0' (g.calcF_agree junk d0 d0' h0 h0' .F (by simp))
      · rw [g.calcG_frame junk d0 d1 true hrest (.axT n) (by simp) (by simp) (by simp) rfl (by simp) (by simp),
          (g.fillG_spec junk d0).1 _ (by simp), (g.fillG_spec junk d0').1 _ (by simp)]
        exact g.calcF_agree junk d0 d0' h0 h0' n hn
    · rw [g.C68_inputs junk none true d1 (Or.inr (Or.inr h1)) k (hbase hb), g.C68_inputs junk none false d2 (Or.inr (Or.inr h2)) k (hbase hb)]

/-- **C68** (unsupported fits). With `case='3d'`, an unknown `case`, or `case='2d'` without exactly two axes,
and at least one pressure, the minima cannot be calculated: `calc_H` and `calc_G` raise. With
`calc_all=False` they do not. -/
theorem C68_unsupported (hc : g.case = .c3 ∨ g.case = .unknown ∨ g.case = .c2 ∧ g.nax ≠ 2) (hP : g.P ≠ []) (ret : Option Dict) :
    g.calcH junk true = none ∧ g.calcG junk ret true = none ∧ (g.calcH junk false).isSome := by
  have h1 : ∀ key d gg idx, g.fitOptStore key d gg idx = none := by
    intro key d gg idx
    unfold fitOptStore
    rcases hc with h | h | ⟨h, h'⟩ <;> simp [h]
    exact h'
  have hH : g.calcH junk true = none := by
    rw [calcH_eq]
    simp only [if_true]
    obtain ⟨n, hn⟩ : ∃ n, g.P.length = n + 1 := ⟨g.P.length - 1, by have := List.length_pos_iff.2 hP; omega⟩
    rw [hn, List.range_succ_eq_map, List.map_cons]
    simp [loopOpt, h1]
  refine ⟨hH, ?_, by simp [calcH_eq]⟩
  by_contra hcon
  obtain ⟨d, hd⟩ := Option.ne_none_iff_exists'.1 hcon
  obtain ⟨d0, F, h0, hF, _, hrest⟩ := g.calcG_cases junk ret true d hd
  simp [optG, hH] at hrest

/-- The keys of the results for up to three axes. -/
def allKeys : List Key :=
  [.T, .P, .ax, .V, .etot, .axT .F, .axT .Fvib, .axT .Evib, .axT .Svib, .axT .Cv, .PaxH, .TPaxG,
    .optP (.ax 0), .optP (.ax 1), .optP (.ax 2), .optP .V, .optP .GH, .optP .B,
    .optTP (.ax 0), .optTP (.ax 1), .optTP (.ax 2), .optTP .V, .optTP .GH, .optTP .B,
    .alpha (.ax 0), .alpha (.ax 1), .alpha (.ax 2), .alpha .V, .Cp]

/-- **C68** (keys). The strings of the keys are different, so that no array overwrites another one. -/
theorem C68_keys (pre : String) (hpre : pre ∈ ["/ax0", "/ax0-ax1", "/ax0-ax1-ax2"]) : (allKeys.map (Key.str pre)).Nodup := by
  simp only [List.mem_cons, List.not_mem_nil, or_false] at hpre
  have r0 : Nat.repr 0 = "0" := by decide
  have r1 : Nat.repr 1 = "1" := by decide
  have r2 : Nat.repr 2 = "2" := by decide
  rcases hpre with rfl | rfl | rfl <;> simp [allKeys, Key.str, OName.str, FName.str, r0, r1, r2]

/-- A small example: two grid points, two pressures, two temperatures. -/
noncomputable def exG : Gibbs where
  T := [1, 2]
  P := [0, 1]
  etot := [5, 6]
  phdos := [([-1, 1], [1, 1]), ([1, 2], [1, 3])]
  axes := [[1], [2]]
  nax := 1
  volfunc := fun a => (a.getD 0 0) ^ 3
  case := .c1
  skipfreq := true
  eps := 0
  dosarea := none
  integ := fun y _ => y.sum
  c := ⟨1, 1, 2⟩
  conv := 2
  fit1G := fun x _ => ⟨fun v => v, fun _ v => v, x.headD 0⟩
  fit2G := fun x _ => ⟨fun _ => 0, x.headD []⟩
  fit1ax := fun x _ => ⟨fun v => v, fun _ v => v, x.headD 0⟩
  fitAlpha := fun x _ => ⟨fun v => v, fun _ v => v, x.headD 0⟩
  fitC := fun x _ => ⟨fun v => v, fun _ v => v, x.headD 0⟩

example : exG.init none = some exG := rfl

theorem exG_harm (p : List ℝ × List ℝ) (h : p.1.length = p.2.length) : harmInit exG.integ p.1 p.2 exG.skipfreq exG.eps exG.dosarea ≠ none := by
  unfold harmInit
  rw [if_neg (by simpa using h)]
  simp [exG]

/-- The hypotheses of the theorems on `calc_F` and `calc_G` are met. -/
example (junk : List Nat → ℝ) : ∃ d, exG.calcF junk true = some d ∧ ∃ d', exG.calcG junk none true = some d' := by
  obtain ⟨d, hd⟩ := exG.C68_F_ok junk true (fun p hp => exG_harm p (by
    simp only [exG, List.mem_cons, List.not_mem_nil, or_false] at hp
    rcases hp with rfl | rfl <;> rfl))
  obtain ⟨F, hF, hs, -⟩ := exG.C68_F junk true rfl d hd .F (by simp)
  obtain ⟨d', G, H, h, -⟩ := exG.C68_opt_1d junk rfl (by simp [exG]) none d F (.inr ⟨rfl, hd⟩) hF hs
  exact ⟨d, hd, d', h⟩

theorem sum_quad : Spec.IsQuadrature (fun y _ => y.sum) := by
  intro x
  refine ⟨fun _ => 1, fun y hy => ?_⟩
  rw [← hy]
  simp only [one_mul]
  clear hy
  induction y with
  | nil => simp
  | cons a y ih => simp only [List.sum_cons, List.length_cons, Finset.sum_range_succ', List.getD_cons_succ, List.getD_cons_zero]; rw [ih]; ring

/-- **C68** (Evib), counterexample: kb = 1 and eV = 2, one phonon mode at grid point 0. The `Evib` of `Gibbs` is
not the internal energy of `HarmonicThermo`. -/
theorem C68_evib_counterexample : ∃ (g : Gibbs) (junk : List Nat → ℝ) (d : Dict) (a : Arr), g.calcF junk true = some d ∧
    d (.axT .Evib) = some (some a) ∧ a.shape = [g.axes.length, g.T.length] ∧ 0 < g.phdos.length ∧ 0 < g.T.length ∧
    ∃ f dos, harmInit g.integ (g.phdos.headD ([], [])).1 (g.phdos.headD ([], [])).2 g.skipfreq g.eps g.dosarea = some (f, dos) ∧
      a.get [0, 0] ≠ evib g.c g.integ f dos (g.T.headD 0) := by
  obtain ⟨d, hd⟩ := exG.C68_F_ok (fun _ => 0) true (fun p hp => exG_harm p (by
    simp only [exG, List.mem_cons, List.not_mem_nil, or_false] at hp
    rcases hp with rfl | rfl <;> rfl))
  obtain ⟨a, h1, h2, h3⟩ := exG.C68_evib_partial (fun _ => 0) rfl d hd (by simp [exG]) (by simp [exG]) (by simp [exG]) sum_quad
  refine ⟨exG, fun _ => 0, d, a, hd, h1, h2, by simp [exG], by simp [exG], ?_⟩
  obtain ⟨f, dos, e1, -, e2⟩ := h3 0 (by simp [exG]) 0 (by simp [exG])
  refine ⟨f, dos, e1, ?_⟩
  have e3 : f = [1] ∧ dos = [1] := by
    simp [harmInit, exG] at e1
    norm_num at e1
    exact ⟨e1.1.symm, e1.2.symm⟩
  obtain ⟨rfl, rfl⟩ := e3
  rw [e2 (by simp) rfl (by simp [exG])]
  have := svib_term_pos (x := 1 / 2) (by norm_num)
  simp [exG, svib, arg]
  norm_num at this ⊢
  linarith

/-- **C68** (constructor): `Gibbs(...)` is accepted exactly when there are as many phonon densities and total
energies as axis points and the axis points have one, two or three coordinates; a `case` that the user
gives is kept, else it follows the number of coordinates; nothing else is changed. -/
theorem C68_init (case : Option Case) :
    (∀ g', g.init case = some g' ↔
      (g.phdos.length = g.axes.length ∧ g.etot.length = g.axes.length) ∧
      ((g.nax = 1 ∧ g' = { g with case := case.getD .c1 }) ∨
       (g.nax = 2 ∧ g' = { g with case := case.getD .c2 }) ∨
       (g.nax = 3 ∧ g' = { g with case := case.getD .c3 }))) := by
  intro g'
  unfold Gibbs.init
  by_cases h1 : g.axes.length = g.phdos.length
  · by_cases h2 : g.axes.length = g.etot.length
    · rw [if_neg (not_not.2 h1), if_neg (not_not.2 h2)]
      have hh : g.phdos.length = g.axes.length ∧ g.etot.length = g.axes.length := ⟨h1.symm, h2.symm⟩
      split
      · rename_i h
        exact ⟨fun e => ⟨hh, .inl ⟨h, (Option.some.inj e).symm⟩⟩, fun ⟨_, e⟩ => by
          rcases e with ⟨a, b⟩ | ⟨a, b⟩ | ⟨a, b⟩
          · rw [b]
          · omega
          · omega⟩
      · rename_i h
        exact ⟨fun e => ⟨hh, .inr (.inl ⟨h, (Option.some.inj e).symm⟩)⟩, fun ⟨_, e⟩ => by
          rcases e with ⟨a, b⟩ | ⟨a, b⟩ | ⟨a, b⟩
          · omega
          · rw [b]
          · omega⟩
      · rename_i h
        exact ⟨fun e => ⟨hh, .inr (.inr ⟨h, (Option.some.inj e).symm⟩)⟩, fun ⟨_, e⟩ => by
          rcases e with ⟨a, b⟩ | ⟨a, b⟩ | ⟨a, b⟩
          · omega
          · omega
          · rw [b]⟩
      · rename_i i1 i2 i3
        exact ⟨fun e => absurd e (by simp), fun ⟨_, e⟩ => by
          rcases e with ⟨a, b⟩ | ⟨a, b⟩ | ⟨a, b⟩
          · exact absurd a i1
          · exact absurd a i2
          · exact absurd a i3⟩
    · rw [if_neg (not_not.2 h1), if_pos h2]
      simp
      intro _ h; exact absurd h.symm h2
  · rw [if_pos h1]
    simp
    intro h; exact absurd h.symm h1

example : exG.init none ≠ none := by simp [Gibbs.init, exG]

end Gibbs
end Pwtools.Thermo
