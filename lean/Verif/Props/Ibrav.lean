import Verif.Model.Ibrav
import Verif.Spec.Ibrav
import Mathlib.Tactic.FieldSimp
import Mathlib.Tactic.Ring
import Mathlib.Tactic.Linarith
import Mathlib.Tactic.LinearCombination
import Mathlib.Tactic.FinCases
import Mathlib.Tactic.NormNum
/-!
# C72 (ibrav2cell), C80 (Nose-Hoover masses)
-/
namespace Pwtools.Ibrav
open Pwtools.Cry

/-- A `celldm` with numbers. -/
def full (a ba ca x y z : ℝ) : Dm := ⟨some a, some ba, some ca, some x, some y, some z⟩

theorem lattice_iff (v : Fin 3 → Fin 3 → ℝ) (r : Fin 3 → ℝ) :
    r ∈ Spec.lattice v ↔ ∃ x y z : ℤ, r = fun k => x * v 0 k + y * v 1 k + z * v 2 k := Iff.rfl

/-- The unused entries of `celldm`: any of them may be `None`, cos(gamma) has to be in the domain of `acos`. -/
def Unused (d : Dm) (a : ℝ) : Prop := d.d1 = some a ∧ ∀ g, d.d6 = some g → -1 ≤ g ∧ g ≤ 1

theorem sinGamma_ok {d : Dm} {a : ℝ} (h : Unused d a) : ∃ s, sinGamma d.d6 = some s := by
  cases hg : d.d6 with
  | none => exact ⟨none, rfl⟩
  | some g => exact ⟨some (Real.sin (Real.arccos g)), by simp [sinGamma, macos, h.2 g hg]⟩

theorem msqrt_pos {x : ℝ} (h : 0 ≤ x) : msqrt x = some (Real.sqrt x) := if_pos h

theorem mulOpt_ok (x : Option ℝ) (a : ℝ) : mulOpt x (some a) = some (x.map (· * a)) := by
  cases x <;> rfl

theorem eval {d : Dm} {a : ℝ} (h : Unused d a) (ibrav : Int) : ∃ s, ibrav2cell ibrav d =
    cellOf ibrav (some a) (d.d2.map (· * a)) (d.d3.map (· * a)) d.d4 d.d5 d.d6 s ∧
    (∀ g, d.d6 = some g → s = some (Real.sin (Real.arccos g))) := by
  obtain ⟨s, hs⟩ := sinGamma_ok h
  refine ⟨s, ?_, fun g hg => ?_⟩
  · unfold ibrav2cell
    rw [h.1, mulOpt_ok, mulOpt_ok]
    simp only [hs]
  · rw [hg] at hs
    simp only [sinGamma, macos, h.2 g hg, and_self, if_true, Option.map_some, Option.some.injEq] at hs
    exact hs.symm

theorem mem_ext {r : Fin 3 → ℝ} {a b c : ℝ} : r = ![a, b, c] ↔ r 0 = a ∧ r 1 = b ∧ r 2 = c := by
  constructor
  · rintro rfl; simp
  · rintro ⟨h0, h1, h2⟩
    funext k
    fin_cases k <;> simp [h0, h1, h2]

theorem lat_ext {r f : Fin 3 → ℝ} : r = f ↔ r 0 = f 0 ∧ r 1 = f 1 ∧ r 2 = f 2 := by
  constructor
  · rintro rfl; simp
  · rintro ⟨h0, h1, h2⟩
    funext k
    fin_cases k <;> simp [h0, h1, h2]

/-- **C72**, ibrav 1: simple cubic lattice, volume a³. -/
theorem C72_ibrav1 {d : Dm} {a : ℝ} (h : Unused d a) : ∃ cell, ibrav2cell 1 d = some cell ∧
    Spec.lattice cell = Spec.simpleBox a a a ∧ Spec.volume cell = a ^ 3 := by
  obtain ⟨s, h1, -⟩ := eval h 1
  refine ⟨_, by rw [h1]; simp [cellOf]; rfl, ?_, ?_⟩
  · ext r
    simp only [Spec.lattice, Spec.simpleBox, Set.mem_setOf_eq]
    refine exists_congr fun x => exists_congr fun y => exists_congr fun z => ?_
    rw [lat_ext, lat_ext (f := ![_, _, _])]
    simp [Matrix.smul_apply, Matrix.one_apply]
  · simp [Spec.volume, Matrix.smul_apply, Matrix.one_apply]; ring

/-- **C72**, ibrav 2: face centered cubic lattice, volume a³/4. -/
theorem C72_ibrav2 {d : Dm} {a : ℝ} (h : Unused d a) : ∃ cell, ibrav2cell 2 d = some cell ∧
    Spec.lattice cell = Spec.faceCenteredBox a a a ∧ Spec.volume cell = a ^ 3 / 4 := by
  obtain ⟨s, h1, -⟩ := eval h 2
  refine ⟨_, by rw [h1]; simp [cellOf]; rfl, ?_, ?_⟩
  · ext r
    simp only [Spec.lattice, Spec.faceCenteredBox, Set.mem_setOf_eq]
    constructor
    · rintro ⟨x, y, z, rfl⟩
      refine ⟨-x - z, y + z, x + y, ⟨y, by ring⟩, ?_⟩
      rw [lat_ext]
      simp [rows, Matrix.smul_apply]
      refine ⟨?_, ?_, ?_⟩ <;> ring
    · rintro ⟨x, y, z, ⟨k, hk⟩, rfl⟩
      refine ⟨z - k, k, y - k, ?_⟩
      rw [lat_ext]
      have hk' : (x : ℝ) + y + z = k + k := by exact_mod_cast hk
      simp [rows, Matrix.smul_apply]
      refine ⟨?_, ?_, ?_⟩
      · linear_combination (a / 2) * hk'
      · ring
      · ring
  · simp [Spec.volume, rows, Matrix.smul_apply]; ring

/-- **C72**, ibrav 3: body centered cubic lattice, volume a³/2. -/
theorem C72_ibrav3 {d : Dm} {a : ℝ} (h : Unused d a) : ∃ cell, ibrav2cell 3 d = some cell ∧
    Spec.lattice cell = Spec.bodyCenteredBox a a a ∧ Spec.volume cell = a ^ 3 / 2 := by
  obtain ⟨s, h1, -⟩ := eval h 3
  refine ⟨_, by rw [h1]; simp [cellOf]; rfl, ?_, ?_⟩
  · ext r
    simp only [Spec.lattice, Spec.bodyCenteredBox, Set.mem_setOf_eq]
    constructor
    · rintro ⟨x, y, z, rfl⟩
      refine ⟨x - y - z, x + y - z, x + y + z, ?_, ?_⟩
      · simp only [Int.even_iff, Int.odd_iff]; omega
      · rw [lat_ext]
        simp [rows, Matrix.smul_apply]
        refine ⟨?_, ?_, ?_⟩ <;> ring
    · rintro ⟨x, y, z, hp, rfl⟩
      obtain ⟨i, hi⟩ : ∃ i, y - x = 2 * i := ⟨(y - x) / 2, by simp only [Int.even_iff, Int.odd_iff] at hp; omega⟩
      obtain ⟨j, hj⟩ : ∃ j, z - y = 2 * j := ⟨(z - y) / 2, by simp only [Int.even_iff, Int.odd_iff] at hp; omega⟩
      refine ⟨x + i + j, i, j, ?_⟩
      rw [lat_ext]
      have hi' : (y : ℝ) - x = 2 * i := by exact_mod_cast hi
      have hj' : (z : ℝ) - y = 2 * j := by exact_mod_cast hj
      simp [rows, Matrix.smul_apply]
      refine ⟨?_, ?_, ?_⟩
      · ring
      · linear_combination (a / 2) * hi'
      · linear_combination (a / 2) * hi' + (a / 2) * hj'
  · simp [Spec.volume, rows, Matrix.smul_apply]; ring

/-- **C72**, ibrav 4: hexagonal, a = b, angles 90, 90, 120 degrees; volume √3/2 a² c. -/
theorem C72_ibrav4 {d : Dm} {a q : ℝ} (h : Unused d a) (ha : a ≠ 0) (h3 : d.d3 = some q) : ∃ cell, ibrav2cell 4 d = some cell ∧
    Spec.HasMetric cell a a (q * a) 0 0 (-(1 / 2)) ∧ Spec.volume cell = Real.sqrt 3 / 2 * a ^ 2 * (q * a) := by
  obtain ⟨s, h1, -⟩ := eval h 4
  have hs : Real.sqrt 3 ^ 2 = 3 := Real.sq_sqrt (by norm_num)
  refine ⟨_, by rw [h1, h3]; simp [cellOf, pdiv, msqrt, ha]; rfl, ?_, ?_⟩
  · refine ⟨?_, ?_, ?_, ?_, ?_, ?_⟩ <;> simp [Spec.sprod, rows, Matrix.smul_apply]
    · ring
    · linear_combination a ^ 2 / 4 * hs
    · ring
    · ring
  · simp [Spec.volume, rows, Matrix.smul_apply]
    ring

/-- **C72**, ibrav 5: trigonal, three edges a, the cosine of all angles is celldm[3]; volume a³ √(1 - 3c² + 2c³). -/
theorem C72_ibrav5 {d : Dm} {a c : ℝ} (h : Unused d a) (h4 : d.d4 = some c) (hc : -(1 / 2) ≤ c ∧ c ≤ 1) :
    ∃ cell, ibrav2cell 5 d = some cell ∧ Spec.HasMetric cell a a a c c c ∧
      Spec.volume cell ^ 2 = a ^ 6 * (1 - 3 * c ^ 2 + 2 * c ^ 3) ∧ (0 ≤ a → 0 ≤ Spec.volume cell) := by
  obtain ⟨s, h1, -⟩ := eval h 5
  have p1 : 0 ≤ (1 - c) / 2 := by linarith [hc.2]
  have p2 : 0 ≤ (1 - c) / 6 := by linarith [hc.2]
  have p3 : 0 ≤ (1 + 2 * c) / 3 := by linarith [hc.1]
  have e1 := Real.sq_sqrt p1
  have e2 := Real.sq_sqrt p2
  have e3 := Real.sq_sqrt p3
  set tx := Real.sqrt ((1 - c) / 2) with htx
  set ty := Real.sqrt ((1 - c) / 6) with hty
  set tz := Real.sqrt ((1 + 2 * c) / 3) with htz
  refine ⟨a • rows ![tx, -ty, tz] ![0, 2 * ty, tz] ![-tx, -ty, tz], ?_, ?_, ?_, ?_⟩
  · rw [h1, h4]
    unfold cellOf
    rw [if_neg (by norm_num), if_neg (by norm_num), if_neg (by norm_num), if_neg (by norm_num), if_pos rfl]
    simp only [Option.bind_eq_bind, Option.bind_some, msqrt_pos p1, msqrt_pos p2, msqrt_pos p3, ← htx, ← hty, ← htz]
  · refine ⟨?_, ?_, ?_, ?_, ?_, ?_⟩ <;> simp [Spec.sprod, rows, Matrix.smul_apply]
    · linear_combination a ^ 2 * (e1 + e2 + e3)
    · linear_combination a ^ 2 * (4 * e2 + e3)
    · linear_combination a ^ 2 * (e1 + e2 + e3)
    · linear_combination a ^ 2 * (-2 * e2 + e3)
    · linear_combination a ^ 2 * (-e1 + e2 + e3)
    · linear_combination a ^ 2 * (-2 * e2 + e3)
  · have : Spec.volume (a • rows ![tx, -ty, tz] ![0, 2 * ty, tz] ![-tx, -ty, tz]) = a ^ 3 * (6 * tx * ty * tz) := by
      simp [Spec.volume, rows, Matrix.smul_apply]; ring
    rw [this]
    have : (a ^ 3 * (6 * tx * ty * tz)) ^ 2 = a ^ 6 * (36 * tx ^ 2 * ty ^ 2 * tz ^ 2) := by ring
    rw [this, e1, e2, e3]; ring
  · intro ha
    have : Spec.volume (a • rows ![tx, -ty, tz] ![0, 2 * ty, tz] ![-tx, -ty, tz]) = a ^ 3 * (6 * tx * ty * tz) := by
      simp [Spec.volume, rows, Matrix.smul_apply]; ring
    rw [this]
    have := Real.sqrt_nonneg ((1 - c) / 2)
    have := Real.sqrt_nonneg ((1 - c) / 6)
    have := Real.sqrt_nonneg ((1 + 2 * c) / 3)
    positivity

/-- **C72**, ibrav 6: simple tetragonal lattice. -/
theorem C72_ibrav6 {d : Dm} {a q : ℝ} (h : Unused d a) (ha : a ≠ 0) (h3 : d.d3 = some q) : ∃ cell, ibrav2cell 6 d = some cell ∧
    Spec.lattice cell = Spec.simpleBox a a (q * a) ∧ Spec.volume cell = a ^ 2 * (q * a) := by
  obtain ⟨s, h1, -⟩ := eval h 6
  refine ⟨_, by rw [h1, h3]; simp [cellOf, pdiv, ha]; rfl, ?_, ?_⟩
  · ext r
    simp only [Spec.lattice, Spec.simpleBox, Set.mem_setOf_eq]
    refine exists_congr fun x => exists_congr fun y => exists_congr fun z => ?_
    rw [lat_ext, lat_ext (f := ![_, _, _])]
    simp [rows, Matrix.smul_apply, mul_comm]
  · simp [Spec.volume, rows, Matrix.smul_apply]; ring

/-- **C72**, ibrav 7: body centered tetragonal lattice. -/
theorem C72_ibrav7 {d : Dm} {a q : ℝ} (h : Unused d a) (ha : a ≠ 0) (h3 : d.d3 = some q) : ∃ cell, ibrav2cell 7 d = some cell ∧
    Spec.lattice cell = Spec.bodyCenteredBox a a (q * a) ∧ Spec.volume cell = a ^ 2 * (q * a) / 2 := by
  obtain ⟨s, h1, -⟩ := eval h 7
  refine ⟨_, by rw [h1, h3]; simp [cellOf, pdiv, ha]; rfl, ?_, ?_⟩
  · ext r
    simp only [Spec.lattice, Spec.bodyCenteredBox, Set.mem_setOf_eq]
    constructor
    · rintro ⟨x, y, z, rfl⟩
      refine ⟨x + y - z, -x + y - z, x + y + z, ?_, ?_⟩
      · simp only [Int.even_iff, Int.odd_iff]; omega
      · rw [lat_ext]
        simp [rows, Matrix.smul_apply]
        refine ⟨?_, ?_, ?_⟩ <;> ring
    · rintro ⟨x, y, z, hp, rfl⟩
      obtain ⟨i, hi⟩ : ∃ i, x - y = 2 * i := ⟨(x - y) / 2, by simp only [Int.even_iff, Int.odd_iff] at hp; omega⟩
      obtain ⟨j, hj⟩ : ∃ j, z - x = 2 * j := ⟨(z - x) / 2, by simp only [Int.even_iff, Int.odd_iff] at hp; omega⟩
      refine ⟨i, x - i + j, j, ?_⟩
      rw [lat_ext]
      have hi' : (x : ℝ) - y = 2 * i := by exact_mod_cast hi
      have hj' : (z : ℝ) - x = 2 * j := by exact_mod_cast hj
      simp [rows, Matrix.smul_apply]
      refine ⟨?_, ?_, ?_⟩
      · ring
      · linear_combination (-a / 2) * hi'
      · linear_combination (q * a / 2) * hj'
  · simp [Spec.volume, rows, Matrix.smul_apply]; ring

/-- **C72**, ibrav 8-11: orthorhombic lattices (simple, base, face and body centered) with edges a, b, c. -/
theorem C72_orthorhombic {d : Dm} {a p q : ℝ} (h : Unused d a) (h2 : d.d2 = some p) (h3 : d.d3 = some q) :
    (∃ cell, ibrav2cell 8 d = some cell ∧ Spec.lattice cell = Spec.simpleBox a (p * a) (q * a) ∧
      Spec.volume cell = a * (p * a) * (q * a)) ∧
    (∃ cell, ibrav2cell 9 d = some cell ∧ Spec.lattice cell = Spec.baseCenteredBox a (p * a) (q * a) ∧
      Spec.volume cell = a * (p * a) * (q * a) / 2) ∧
    (∃ cell, ibrav2cell 10 d = some cell ∧ Spec.lattice cell = Spec.faceCenteredBox a (p * a) (q * a) ∧
      Spec.volume cell = a * (p * a) * (q * a) / 4) ∧
    (∃ cell, ibrav2cell 11 d = some cell ∧ Spec.lattice cell = Spec.bodyCenteredBox a (p * a) (q * a) ∧
      Spec.volume cell = a * (p * a) * (q * a) / 2) := by
  refine ⟨?_, ?_, ?_, ?_⟩
  · obtain ⟨s, h1, -⟩ := eval h 8
    refine ⟨_, by rw [h1, h2, h3]; simp [cellOf]; rfl, ?_, ?_⟩
    · ext r
      simp only [Spec.lattice, Spec.simpleBox, Set.mem_setOf_eq]
      refine exists_congr fun x => exists_congr fun y => exists_congr fun z => ?_
      rw [lat_ext, lat_ext (f := ![_, _, _])]
      simp [rows]
    · simp [Spec.volume, rows]; ring
  · obtain ⟨s, h1, -⟩ := eval h 9
    refine ⟨_, by rw [h1, h2, h3]; simp [cellOf]; rfl, ?_, ?_⟩
    · ext r
      simp only [Spec.lattice, Spec.baseCenteredBox, Set.mem_setOf_eq]
      constructor
      · rintro ⟨x, y, z, rfl⟩
        refine ⟨x - y, x + y, z, ⟨x, by ring⟩, ?_⟩
        rw [lat_ext]
        simp [rows]
        refine ⟨?_, ?_⟩ <;> ring
      · rintro ⟨x, y, z, ⟨k, hk⟩, rfl⟩
        refine ⟨k, y - k, z, ?_⟩
        have hk' : (x : ℝ) + y = k + k := by exact_mod_cast hk
        rw [lat_ext]
        simp [rows]
        refine ⟨?_, ?_⟩
        · linear_combination (a / 2) * hk'
        · ring
    · simp [Spec.volume, rows]; ring
  · obtain ⟨s, h1, -⟩ := eval h 10
    refine ⟨_, by rw [h1, h2, h3]; simp [cellOf]; rfl, ?_, ?_⟩
    · ext r
      simp only [Spec.lattice, Spec.faceCenteredBox, Set.mem_setOf_eq]
      constructor
      · rintro ⟨x, y, z, rfl⟩
        refine ⟨x + y, y + z, x + z, ⟨x + y + z, by ring⟩, ?_⟩
        rw [lat_ext]
        simp [rows]
        refine ⟨?_, ?_, ?_⟩ <;> ring
      · rintro ⟨x, y, z, ⟨k, hk⟩, rfl⟩
        refine ⟨k - y, k - z, k - x, ?_⟩
        have hk' : (x : ℝ) + y + z = k + k := by exact_mod_cast hk
        rw [lat_ext]
        simp [rows]
        refine ⟨?_, ?_, ?_⟩
        · linear_combination (a / 2) * hk'
        · linear_combination (p * a / 2) * hk'
        · linear_combination (q * a / 2) * hk'
    · simp [Spec.volume, rows]; ring
  · obtain ⟨s, h1, -⟩ := eval h 11
    refine ⟨_, by rw [h1, h2, h3]; simp [cellOf]; rfl, ?_, ?_⟩
    · ext r
      simp only [Spec.lattice, Spec.bodyCenteredBox, Set.mem_setOf_eq]
      constructor
      · rintro ⟨x, y, z, rfl⟩
        refine ⟨x - y - z, x + y - z, x + y + z, ?_, ?_⟩
        · simp only [Int.even_iff, Int.odd_iff]; omega
        · rw [lat_ext]
          simp [rows]
          refine ⟨?_, ?_, ?_⟩ <;> ring
      · rintro ⟨x, y, z, hp, rfl⟩
        obtain ⟨i, hi⟩ : ∃ i, y - x = 2 * i := ⟨(y - x) / 2, by simp only [Int.even_iff, Int.odd_iff] at hp; omega⟩
        obtain ⟨j, hj⟩ : ∃ j, z - y = 2 * j := ⟨(z - y) / 2, by simp only [Int.even_iff, Int.odd_iff] at hp; omega⟩
        refine ⟨x + i + j, i, j, ?_⟩
        rw [lat_ext]
        have hi' : (y : ℝ) - x = 2 * i := by exact_mod_cast hi
        have hj' : (z : ℝ) - y = 2 * j := by exact_mod_cast hj
        simp [rows]
        refine ⟨?_, ?_, ?_⟩
        · ring
        · linear_combination (p * a / 2) * hi'
        · linear_combination (q * a / 2) * hi' + (q * a / 2) * hj'
    · simp [Spec.volume, rows]; ring

theorem sin_arccos_sq {g : ℝ} (hg : -1 ≤ g ∧ g ≤ 1) : Real.sin (Real.arccos g) ^ 2 = 1 - g ^ 2 := by
  rw [Real.sin_arccos, Real.sq_sqrt]
  nlinarith [hg.1, hg.2]

/-- **C72**, ibrav 12: monoclinic with edges a, b, c and the angle gamma between a and b. -/
theorem C72_ibrav12 {d : Dm} {a p q g : ℝ} (h : Unused d a) (h2 : d.d2 = some p) (h3 : d.d3 = some q) (h6 : d.d6 = some g) :
    ∃ cell, ibrav2cell 12 d = some cell ∧ Spec.HasMetric cell a (p * a) (q * a) 0 0 g ∧
      Spec.volume cell = a * (p * a) * (q * a) * Real.sqrt (1 - g ^ 2) := by
  obtain ⟨s, h1, hs⟩ := eval h 12
  rw [hs g h6] at h1
  have e := sin_arccos_sq (h.2 g h6)
  have e' := Real.sin_arccos g
  refine ⟨_, by rw [h1, h2, h3, h6]; simp [cellOf]; rfl, ?_, ?_⟩
  · refine ⟨?_, ?_, ?_, ?_, ?_, ?_⟩ <;> simp [Spec.sprod, rows]
    · ring
    · linear_combination (p * a) ^ 2 * e
    · ring
    · ring
  · rw [← e']
    simp [Spec.volume, rows]; ring

/-- **C72**, ibrav 13: the lattice of the monoclinic cell with edges a, b, c, gamma between a and b, with the face of a and
c centered. -/
theorem C72_ibrav13 {d : Dm} {a p q g : ℝ} (h : Unused d a) (h2 : d.d2 = some p) (h3 : d.d3 = some q) (h6 : d.d6 = some g) :
    ∃ cell conv, ibrav2cell 13 d = some cell ∧ ibrav2cell 12 d = some conv ∧
      Spec.lattice cell = {r | ∃ x y z : ℤ, Even (x + z) ∧
        r = fun k => x * (conv 0 k / 2) + y * conv 1 k + z * (conv 2 k / 2)} ∧
      Spec.volume cell = Spec.volume conv / 2 := by
  obtain ⟨s, h1, hs⟩ := eval h 13
  obtain ⟨s', h1', hs'⟩ := eval h 12
  rw [hs g h6] at h1
  rw [hs' g h6] at h1'
  refine ⟨_, _, by rw [h1, h2, h3, h6]; simp [cellOf]; rfl, by rw [h1', h2, h3, h6]; simp [cellOf]; rfl, ?_, ?_⟩
  · ext r
    simp only [Spec.lattice, Set.mem_setOf_eq]
    constructor
    · rintro ⟨x, y, z, rfl⟩
      refine ⟨x + z, y, z - x, ⟨z, by ring⟩, ?_⟩
      rw [lat_ext]
      simp [rows]
      refine ⟨?_, ?_⟩ <;> ring
    · rintro ⟨x, y, z, ⟨k, hk⟩, rfl⟩
      refine ⟨k - z, y, k, ?_⟩
      have hk' : (x : ℝ) + z = k + k := by exact_mod_cast hk
      rw [lat_ext]
      simp [rows]
      refine ⟨?_, ?_⟩
      · linear_combination (a / 2) * hk'
      · ring
  · simp [Spec.volume, rows]; ring

/-- **C72**, ibrav 14: triclinic with edges a, b, c and the given cosines; and the same cell as
`crys.cc2cell(crys.celldm2cc(celldm))` for lengths that are not negative. -/
theorem C72_ibrav14 {a p q x y g : ℝ} (hx : -1 ≤ x ∧ x ≤ 1) (hy : -1 ≤ y ∧ y ≤ 1) (hg : -1 < g ∧ g < 1)
    (hr : 0 ≤ 1 + 2 * x * y * g - x ^ 2 - y ^ 2 - g ^ 2) :
    ∃ cell, ibrav2cell 14 (full a p q x y g) = some cell ∧ Spec.HasMetric cell a (p * a) (q * a) x y g ∧
      Spec.volume cell = a * (p * a) * (q * a) * Real.sqrt (1 + 2 * x * y * g - x ^ 2 - y ^ 2 - g ^ 2) ∧
      (0 ≤ q * a → cell = cc2cell (celldm2cc ⟨a, p, q, x, y, g⟩ 1)) := by
  have h : Unused (full a p q x y g) a := ⟨rfl, fun g' hg' => by
    simp only [full, Option.some.injEq] at hg'
    exact hg' ▸ ⟨hg.1.le, hg.2.le⟩⟩
  obtain ⟨s, h1, hs⟩ := eval h 14
  rw [hs g rfl] at h1
  have e := sin_arccos_sq (g := g) ⟨hg.1.le, hg.2.le⟩
  have hpos : 0 < Real.sin (Real.arccos g) := by
    rw [Real.sin_arccos]
    exact Real.sqrt_pos.2 (by nlinarith [hg.1, hg.2])
  have er := Real.sq_sqrt hr
  set S := Real.sin (Real.arccos g) with hS
  set R := Real.sqrt (1 + 2 * x * y * g - x ^ 2 - y ^ 2 - g ^ 2) with hR
  have hR0 : 0 ≤ R := Real.sqrt_nonneg _
  have hS0 := hpos.ne'
  refine ⟨rows ![a, 0, 0] ![p * a * g, p * a * S, 0] ![q * a * y, q * a * (x - y * g) / S, q * a * R / S], ?_, ?_, ?_, ?_⟩
  · rw [h1]
    simp only [full, Option.map_some]
    unfold cellOf
    rw [if_neg (by norm_num), if_neg (by norm_num), if_neg (by norm_num), if_neg (by norm_num), if_neg (by norm_num),
      if_neg (by norm_num), if_neg (by norm_num), if_neg (by norm_num), if_neg (by norm_num), if_neg (by norm_num),
      if_neg (by norm_num), if_neg (by norm_num), if_neg (by norm_num), if_pos rfl]
    simp only [Option.bind_eq_bind, Option.bind_some, pdiv, hS0, if_false, msqrt_pos hr, ← hR]
  · refine ⟨?_, ?_, ?_, ?_, ?_, ?_⟩ <;> simp [Spec.sprod, rows]
    · ring
    · linear_combination (p * a) ^ 2 * e
    · field_simp
      linear_combination (q * a) ^ 2 * (er) + (q * a) ^ 2 * (y ^ 2 - 1) * e
    · field_simp; ring
    · ring
    · ring
  · simp [Spec.volume, rows]
    field_simp
  · intro hc
    unfold cc2cell celldm2cc
    have ed : ∀ t : ℝ, Real.arccos t / Real.pi * 180 * Real.pi / 180 = Real.arccos t := by
      intro t; have := Real.pi_ne_zero; field_simp
    simp only [ed, mul_one, Real.cos_arccos hx.1 hx.2, Real.cos_arccos hy.1 hy.2, Real.cos_arccos hg.1.le hg.2.le, ← hS]
    have hz : Real.sqrt ((q * a) ^ 2 - (q * a * (x - y * g) / S) ^ 2 - (q * a * y) ^ 2) = q * a * R / S := by
      have e2 : (q * a) ^ 2 - (q * a * (x - y * g) / S) ^ 2 - (q * a * y) ^ 2 = (q * a * R / S) ^ 2 := by
        field_simp
        linear_combination -(q * a) ^ 2 * er + (q * a) ^ 2 * (1 - y ^ 2) * e
      rw [e2, Real.sqrt_sq (by positivity)]
    rw [hz]; rfl

/-- **C72** (refusals): other values of ibrav are refused; so is a missing `a`, and a cos(gamma) that is no cosine. -/
theorem C72_refused (ibrav : Int) (d : Dm) :
    ((ibrav < 1 ∨ 14 < ibrav) → ibrav2cell ibrav d = none) ∧
    (d.d1 = none → ibrav2cell ibrav d = none) ∧
    (∀ g, d.d6 = some g → (g < -1 ∨ 1 < g) → ibrav2cell ibrav d = none) := by
  refine ⟨fun h => ?_, fun h => ?_, fun g hg h => ?_⟩
  · have hc : ∀ aa bb cc x y z s, cellOf ibrav aa bb cc x y z s = none := by
      intros
      unfold cellOf
      repeat rw [if_neg (by omega)]
    unfold ibrav2cell
    split
    · rfl
    · split
      · rfl
      · split
        · rfl
        · exact hc _ _ _ _ _ _ _
  · have hc : ∀ bb cc x y z s, cellOf ibrav none bb cc x y z s = none := by
      intros
      unfold cellOf
      simp only [Option.bind_eq_bind, Option.bind_none, ite_self]
    unfold ibrav2cell
    rw [h]
    split
    · rfl
    · split
      · rfl
      · split
        · rfl
        · exact hc _ _ _ _ _ _
  · have hs : sinGamma d.d6 = none := by
      rw [hg]
      have : ¬(-1 ≤ g ∧ g ≤ 1) := by rintro ⟨a, b⟩; rcases h with h | h <;> linarith
      simp [sinGamma, macos, this]
    unfold ibrav2cell
    rw [hs]
    split
    · rfl
    · split <;> rfl

/-- The hypotheses are met: a triclinic cell; a cubic one with the other entries `None`. -/
example : (0 : ℝ) ≤ 1 + 2 * (1 / 2) * (1 / 3) * (1 / 4) - (1 / 2) ^ 2 - (1 / 3) ^ 2 - (1 / 4) ^ 2 := by norm_num
example : Unused ⟨some 3, none, none, none, none, none⟩ 3 := ⟨rfl, fun g hg => by simp at hg⟩

/-! ### C80 -/

theorem qi_pos {k : MConst} (hk : 0 < k.kb ∧ 0 < k.m0 ∧ 0 < k.a0) {freq temp : ℝ} (hf : freq ≠ 0) (ht : 0 < temp) :
    0 < k.kb * temp / freq ^ 2 / k.m0 / k.a0 ^ 2 := by
  obtain ⟨h1, h2, h3⟩ := hk
  positivity

/-- **C80**, particle chain: `nnos` masses, the first `nf` times each of the others, all positive. -/
theorem C80_particle {k : MConst} (hk : 0 < k.kb ∧ 0 < k.m0 ∧ 0 < k.a0) {freq temp nf : ℝ} (hf : freq ≠ 0) (ht : 0 < temp)
    (hn : 0 < nf) (nnos : Int) (h : 1 ≤ nnos) :
    ∃ q, particleNhcMasses k freq temp (some nf) nnos = some q ∧ (q.length : Int) = nnos ∧ (∀ m ∈ q, 0 < m) ∧
      q[0]? = some (nf * (k.kb * temp / freq ^ 2 / k.m0 / k.a0 ^ 2)) ∧
      (∀ i : Nat, 0 < i → (i : Int) < nnos → q[i]? = some (k.kb * temp / freq ^ 2 / k.m0 / k.a0 ^ 2)) := by
  have hq := qi_pos hk hf ht
  refine ⟨_, by simp only [particleNhcMasses, ge_iff_le, h, if_true]; rfl, ?_, ?_, ?_, ?_⟩
  · simp; omega
  · intro m hm
    simp only [List.cons_append, List.nil_append, List.mem_cons, List.mem_replicate] at hm
    rcases hm with rfl | ⟨-, rfl⟩
    · exact mul_pos hn hq
    · exact hq
  · rfl
  · intro i hi hlt
    obtain ⟨i, rfl⟩ := Nat.exists_eq_succ_of_ne_zero hi.ne'
    simp only [List.cons_append, List.nil_append, Nat.succ_eq_add_one, List.getElem?_cons_succ]
    rw [List.getElem?_replicate, if_pos (by omega)]; rfl

/-- **C80**, barostat chain: `nnos` masses, the first `ndim²` times each of the others, all positive. -/
theorem C80_barostat {k : MConst} (hk : 0 < k.kb ∧ 0 < k.m0 ∧ 0 < k.a0) {freq temp ndim : ℝ} (hf : freq ≠ 0) (ht : 0 < temp)
    (hn : ndim ≠ 0) (nnos : Int) (h : 1 ≤ nnos) :
    ∃ q, barostatNhcMasses k freq temp ndim nnos = some q ∧ (q.length : Int) = nnos ∧ (∀ m ∈ q, 0 < m) ∧
      q[0]? = some (ndim ^ 2 * (k.kb * temp / freq ^ 2 / k.m0 / k.a0 ^ 2)) ∧
      (∀ i : Nat, 0 < i → (i : Int) < nnos → q[i]? = some (k.kb * temp / freq ^ 2 / k.m0 / k.a0 ^ 2)) := by
  have hq := qi_pos hk hf ht
  refine ⟨_, by simp only [barostatNhcMasses, ge_iff_le, h, if_true]; rfl, ?_, ?_, ?_, ?_⟩
  · simp; omega
  · intro m hm
    simp only [List.cons_append, List.nil_append, List.mem_cons, List.mem_replicate] at hm
    rcases hm with rfl | ⟨-, rfl⟩
    · exact mul_pos hq (by positivity)
    · exact hq
  · simp [qi, mul_comm]
  · intro i hi hlt
    obtain ⟨i, rfl⟩ := Nat.exists_eq_succ_of_ne_zero hi.ne'
    simp only [List.cons_append, List.nil_append, Nat.succ_eq_add_one, List.getElem?_cons_succ]
    rw [List.getElem?_replicate, if_pos (by omega)]; rfl

/-- **C80** (refusals): chains shorter than 1 are refused; so is the default `nf=None`. -/
theorem C80_refused (k : MConst) (freq temp ndim : ℝ) (nf : Option ℝ) (nnos : Int) :
    (nnos < 1 → particleNhcMasses k freq temp nf nnos = none ∧ barostatNhcMasses k freq temp ndim nnos = none) ∧
    particleNhcMasses k freq temp none nnos = none ∧
    barostatMassW k freq temp none ndim = none ∧ barostatMassWg k freq temp none ndim = none := by
  refine ⟨fun h => ⟨?_, ?_⟩, ?_, rfl, rfl⟩
  · simp [particleNhcMasses, not_le.2 h]
  · simp [barostatNhcMasses, not_le.2 h]
  · unfold particleNhcMasses
    split <;> rfl

/-- **C80**, barostat masses: `W = (nf + ndim) kb T / freq²` in atomic units, positive, `ndim` times `W_g`. -/
theorem C80_mass {k : MConst} (hk : 0 < k.kb ∧ 0 < k.m0 ∧ 0 < k.a0) {freq temp nf ndim : ℝ} (hf : freq ≠ 0) (ht : 0 < temp)
    (hn : 0 < nf) (hd : 0 < ndim) :
    ∃ w wg, barostatMassW k freq temp (some nf) ndim = some w ∧ barostatMassWg k freq temp (some nf) ndim = some wg ∧
      w = (nf + ndim) * (k.kb * temp / freq ^ 2 / k.m0 / k.a0 ^ 2) ∧ 0 < w ∧ 0 < wg ∧ w = ndim * wg := by
  have hq := qi_pos hk hf ht
  have e : (nf + ndim) * k.kb * temp / freq ^ 2 / k.m0 / k.a0 ^ 2 = (nf + ndim) * (k.kb * temp / freq ^ 2 / k.m0 / k.a0 ^ 2) := by ring
  have e2 : (nf + ndim) * k.kb * temp / ndim / freq ^ 2 / k.m0 / k.a0 ^ 2 =
      (nf + ndim) * (k.kb * temp / freq ^ 2 / k.m0 / k.a0 ^ 2) / ndim := by ring
  have hs : 0 < nf + ndim := by linarith
  refine ⟨_, _, rfl, rfl, e, ?_, ?_, ?_⟩ <;> simp only
  · rw [e]; exact mul_pos hs hq
  · rw [e2]; exact div_pos (mul_pos hs hq) hd
  · rw [e, e2]; field_simp

example : ∃ q, particleNhcMasses ⟨1, 1, 1⟩ 2 3 (some 6) 4 = some q ∧ q.length = 4 := by
  obtain ⟨q, h1, h2, -⟩ := C80_particle (k := ⟨1, 1, 1⟩) (by simp) (freq := 2) (temp := 3) (nf := 6) (by norm_num) (by norm_num)
    (by norm_num) 4 (by norm_num)
  exact ⟨q, h1, by exact_mod_cast h2⟩

end Pwtools.Ibrav
