import Verif.Model.Dcd
import Verif.Spec.Dcd
/-!
# C33: dcd readers
-/
namespace Pwtools.Dcd
open Pwtools.Spec.Dcd (Frame le32 record header file)

variable {F8 F4 : Type} (f8 : Bytes → F8) (f4 : Bytes → F4) (acos : F8 → F8)

/-- The numbers of a frame, in the order a user expects. -/
def frameVal (convang : Bool) (f : Frame) : Step F8 F4 :=
  { crystConst := [f8 f.a, f8 f.b, f8 f.c] ++
      (if convang then [acos (f8 f.alpha), acos (f8 f.beta), acos (f8 f.gamma)]
       else [f8 f.alpha, f8 f.beta, f8 f.gamma]),
    coords := f.atoms.map (fun p => (f4 p.1, f4 p.2.1, f4 p.2.2)) }

/-! ### Lemmas -/

theorem length_le32 (n : Nat) : (le32 n).length = 4 := rfl

theorem i4_le32 (n : Nat) (h : n < 2 ^ 31) : i4 (le32 n) = n := by
  have e : le (le32 n) = n := by
    simp only [le, le32, UInt8.toNat_ofNat']
    omega
  unfold i4
  rw [e, if_pos h]

theorem fields_flatten (l : List Bytes) (t : Bytes) : fields (l.map List.length) (l.flatten ++ t) = l := by
  induction l with
  | nil => rfl
  | cons a l ih =>
    simp only [List.map_cons, fields, List.flatten_cons, List.append_assoc, List.take_left', List.drop_left', ih]

theorem chunks_flatten (s : Nat) (l : List Bytes) (h : ∀ x ∈ l, x.length = s) (t : Bytes) :
    chunks s l.length (l.flatten ++ t) = l := by
  induction l with
  | nil => rfl
  | cons a l ih =>
    have ha : a.length = s := h a (by simp)
    simp only [List.length_cons, chunks, List.flatten_cons, List.append_assoc]
    rw [List.take_left' ha, List.drop_left' ha, ih (fun x hx => h x (by simp [hx]))]

theorem flatten_length (s : Nat) (l : List Bytes) (h : ∀ x ∈ l, x.length = s) : l.flatten.length = s * l.length := by
  induction l with
  | nil => rfl
  | cons a l ih =>
    rw [List.flatten_cons, List.length_append, h a (by simp), ih (fun x hx => h x (by simp [hx])), List.length_cons]
    rw [Nat.mul_add]; omega

theorem sum_refSizes (n : Nat) : (refSizes n).sum = 80 + 12 * n := by
  simp only [refSizes, List.sum_cons, List.sum_nil]; omega

theorem sum_fastSizes (n : Nat) : (fastSizes n).sum = 80 + 12 * n := by
  simp only [fastSizes, List.sum_cons, List.sum_nil]; omega

/-- Both dtypes describe the same bytes. -/
theorem refStep_eq (n : Nat) (b : Bytes) : refStep f8 f4 n b = fastStep f8 f4 n b := by
  unfold refStep fastStep refSizes fastSizes
  simp only [fields, List.drop_drop, List.getD_cons_succ, List.getD_cons_zero]

theorem refLoop_eq (n : Nat) : ∀ (k : Nat) (b : Bytes), b.length / (80 + 12 * n) = k →
    refLoop f8 f4 n b = (chunks (80 + 12 * n) k b).map (fastStep f8 f4 n) := by
  intro k
  induction k with
  | zero =>
    intro b h
    rw [refLoop, sum_refSizes, dif_pos]
    · rfl
    · rcases Nat.div_eq_zero_iff.1 h with h | h <;> omega
  | succ k ih =>
    intro b h
    have hlt : 80 + 12 * n ≤ b.length := by
      apply Decidable.byContradiction
      intro hc
      rw [Nat.div_eq_of_lt (by omega)] at h
      omega
    rw [refLoop, sum_refSizes, dif_neg (by omega), refStep_eq, chunks, List.map_cons, ih]
    rw [List.length_drop]
    rw [Nat.div_eq_sub_div (by omega) hlt] at h
    omega

/-- **C33** (agreement on all files). Whatever the bytes of the file are: if `read_dcd_data` returns
steps, `read_dcd_data_ref` returns the same. (The exception: no step at all and `convang`, where only the
reference implementation fails.) -/
theorem C33_agree (b : Bytes) (convang : Bool) (r : List (Step F8 F4))
    (h : readFast f8 f4 acos b convang = .ok r) :
    readRef f8 f4 acos b convang = .ok r ∨ (r = [] ∧ convang = true ∧ readRef f8 f4 acos b convang = .error .indexError) := by
  unfold readFast at h
  unfold readRef
  cases hn : readNatoms b with
  | error e => rw [hn] at h; cases h
  | ok p =>
    obtain ⟨natoms, rest⟩ := p
    rw [hn] at h
    simp only at h ⊢
    split at h
    · cases h
    · split at h
      · cases h
      · rename_i h1 h2
        rw [if_neg h2]
        have hnat : ((natoms.toNat : Nat) : Int) = natoms := Int.toNat_of_nonneg (by omega)
        have hk : (((rest.length : Int) / (4 + 6 * 8 + 7 * 4 + 3 * 4 * natoms)).toNat) = rest.length / (80 + 12 * natoms.toNat) := by
          have : (4 + 6 * 8 + 7 * 4 + 3 * 4 * natoms : Int) = ((80 + 12 * natoms.toNat : Nat) : Int) := by
            push_cast; omega
          rw [this, ← Int.natCast_ediv]
          rfl
        rw [hk, sum_fastSizes, ← refLoop_eq f8 f4 natoms.toNat _ rest rfl] at h
        simp only [Except.ok.injEq] at h
        cases convang
        · left
          simp only [Bool.false_eq_true, if_false] at h ⊢
          rw [h]
        · simp only [if_true] at h ⊢
          split
          · rename_i h3
            right
            rw [h3] at h
            exact ⟨by rw [← h]; rfl, by simp⟩
          · left; rw [h]

/-- **C33** (what the fast reader refuses). With a complete header and `natoms ≥ 0`, `read_dcd_data`
succeeds exactly if the rest of the file is a whole number of steps; the reference implementation
then never fails (for `convang=False`) and returns the complete steps. -/
theorem C33_complete (b : Bytes) (natoms : Nat) (rest : Bytes) (h : readNatoms b = .ok (natoms, rest)) :
    ((∃ r, readFast f8 f4 acos b false = .ok r) ↔ rest.length % (80 + 12 * natoms) = 0) ∧
    (rest.length % (80 + 12 * natoms) ≠ 0 → readFast f8 f4 acos b false = .error .assertion) ∧
    ∃ r, readRef f8 f4 acos b false = .ok r ∧ r.length = rest.length / (80 + 12 * natoms) := by
  have e1 : (4 + 6 * 8 + 7 * 4 + 3 * 4 * (natoms : Int) : Int) = ((80 + 12 * natoms : Nat) : Int) := by
    push_cast; omega
  have hlen : ∀ (s k : Nat) (b : Bytes), (chunks s k b).length = k := by
    intro s k
    induction k with
    | zero => intro b; rfl
    | succ k ih => intro b; simp [chunks, ih]
  have e2 : ((rest.length : Int) % (4 + 6 * 8 + 7 * 4 + 3 * 4 * (natoms : Int)) ≠ 0) ↔ rest.length % (80 + 12 * natoms) ≠ 0 := by
    rw [e1]
    constructor
    · intro h1 h2; apply h1; exact_mod_cast h2
    · intro h1 h2; apply h1; exact_mod_cast h2
  refine ⟨?_, ?_, ?_⟩
  · unfold readFast
    rw [h]
    simp only
    constructor
    · rintro ⟨r, hr⟩
      apply Decidable.byContradiction
      intro hc
      rw [if_pos (e2.2 hc)] at hr
      cases hr
    · intro hz
      rw [if_neg (by rw [e2]; simpa using hz), if_neg (by omega)]
      exact ⟨_, rfl⟩
  · intro hz
    unfold readFast
    rw [h]
    simp only
    rw [if_pos (e2.2 hz)]
  · unfold readRef
    rw [h]
    simp only
    rw [if_neg (by omega), if_neg (by simp)]
    refine ⟨_, rfl, ?_⟩
    rw [Int.toNat_natCast, refLoop_eq f8 f4 natoms _ rest rfl, List.length_map, hlen]

/-! ### Well formed files -/

theorem length_record (d : Bytes) : (record d).length = d.length + 8 := by
  unfold record; simp only [List.length_append, length_le32]; omega

theorem length_encode {n : Nat} (f : Frame) (h : f.WF n) : f.encode.length = 80 + 12 * n := by
  have hx : ∀ g : (Bytes × Bytes × Bytes) → Bytes, (∀ p ∈ f.atoms, (g p).length = 4) →
      (f.atoms.map g).flatten.length = 4 * n := by
    intro g hg
    rw [flatten_length 4 _ (fun x hx => by obtain ⟨p, hp, rfl⟩ := List.mem_map.1 hx; exact hg p hp), List.length_map, h.natoms]
  have c := h.cell
  simp only [List.mem_cons, List.not_mem_nil, or_false, forall_eq_or_imp, forall_eq] at c
  simp only [Spec.Dcd.Frame.encode, List.length_append, length_record]
  rw [hx _ (fun p hp => (h.atoms p hp).1), hx _ (fun p hp => (h.atoms p hp).2.1), hx _ (fun p hp => (h.atoms p hp).2.2)]
  omega

theorem zip_map3 {α β : Type} (f : α → β) (l : List (α × α × α)) :
    coords ((l.map (fun p => p.1)).map f) ((l.map (fun p => p.2.1)).map f) ((l.map (fun p => p.2.2)).map f) =
      l.map (fun p => (f p.1, f p.2.1, f p.2.2)) := by
  unfold coords
  induction l with
  | nil => rfl
  | cons a l ih => simp only [List.map_cons, List.zip_cons_cons, ih]

theorem fastStep_encode {n : Nat} (f : Frame) (h : f.WF n) (t : Bytes) :
    fastStep f8 f4 n (f.encode ++ t) = frameVal f8 f4 acos false f := by
  have c := h.cell
  have hall := h.cell
  simp only [List.mem_cons, List.not_mem_nil, or_false, forall_eq_or_imp, forall_eq] at c
  have hx : ∀ g : (Bytes × Bytes × Bytes) → Bytes, (∀ p ∈ f.atoms, (g p).length = 4) →
      (f.atoms.map g).flatten.length = 4 * n := by
    intro g hg
    rw [flatten_length 4 _ (fun x hx => by obtain ⟨p, hp, rfl⟩ := List.mem_map.1 hx; exact hg p hp), List.length_map, h.natoms]
  have x1 : (f.atoms.map (fun p => p.1)).flatten.length = 4 * n := hx _ (fun p hp => (h.atoms p hp).1)
  have x2 := hx _ (fun p hp => (h.atoms p hp).2.1)
  have x3 := hx _ (fun p hp => (h.atoms p hp).2.2)
  have hcell : (f.a ++ f.gamma ++ f.b ++ f.beta ++ f.alpha ++ f.c).length = 48 := by
    simp only [List.length_append]; omega
  let ps : List Bytes := [le32 48, f.a ++ f.gamma ++ f.b ++ f.beta ++ f.alpha ++ f.c, le32 48 ++ le32 (4 * n),
    (f.atoms.map (fun p => p.1)).flatten, le32 (4 * n) ++ le32 (4 * n), (f.atoms.map (fun p => p.2.1)).flatten,
    le32 (4 * n) ++ le32 (4 * n), (f.atoms.map (fun p => p.2.2)).flatten, le32 (4 * n)]
  have hs : fastSizes n = ps.map List.length := by
    simp only [ps, List.map_cons, List.map_nil, hcell, x1, x2, x3, length_le32, List.length_append, fastSizes]
  have he : f.encode = ps.flatten := by
    simp only [ps, Spec.Dcd.Frame.encode, record, hcell, x1, x2, x3]
    simp only [List.flatten_cons, List.flatten_nil, List.append_assoc, List.append_nil]
  have hch : ∀ g : (Bytes × Bytes × Bytes) → Bytes, (∀ p ∈ f.atoms, (g p).length = 4) →
      chunks 4 n (f.atoms.map g).flatten = f.atoms.map g := by
    intro g hg
    have := chunks_flatten 4 (f.atoms.map g) (fun x hx => by obtain ⟨p, hp, rfl⟩ := List.mem_map.1 hx; exact hg p hp) []
    rwa [List.length_map, h.natoms, List.append_nil] at this
  have hc8 : chunks 8 6 (f.a ++ f.gamma ++ f.b ++ f.beta ++ f.alpha ++ f.c) = [f.a, f.gamma, f.b, f.beta, f.alpha, f.c] := by
    have := chunks_flatten 8 [f.a, f.gamma, f.b, f.beta, f.alpha, f.c] (by simp; omega) []
    simpa using this
  unfold fastStep
  rw [hs, he, fields_flatten]
  simp only [ps, List.getD_cons_succ, List.getD_cons_zero]
  rw [hch _ (fun p hp => (h.atoms p hp).1), hch _ (fun p hp => (h.atoms p hp).2.1), hch _ (fun p hp => (h.atoms p hp).2.2),
    hc8, zip_map3]
  rfl

theorem readNatoms_file (word : Bytes) (nstep : Nat) (other title : Bytes) (natoms : Nat) (rest : Bytes)
    (hw : word.length = 4) (ho : other.length = 76) (ht : title.length = 164) (hn : natoms < 2 ^ 31) :
    readNatoms (header word nstep other title natoms ++ rest) = .ok ((natoms : Int), rest) := by
  have hlen : (header word nstep other title natoms).length = 276 := by
    simp only [header, List.length_append, length_record, length_le32]; omega
  have hsum : headerSizes.sum = 276 := rfl
  unfold readNatoms
  rw [hsum, if_neg (by rw [List.length_append]; omega), List.drop_left' hlen]
  have e : (fields headerSizes (header word nstep other title natoms ++ rest)).getD 12 [] = le32 natoms := by
    have h1 : ∀ b : Bytes, (fields headerSizes b).getD 12 [] = (b.drop 268).take 4 := by
      intro b
      simp only [headerSizes, fields, List.drop_drop, List.getD_cons_succ, List.getD_cons_zero]
    rw [h1]
    have h2 : header word nstep other title natoms ++ rest =
        (record (word ++ le32 nstep ++ other) ++ record title ++ le32 4) ++ (le32 natoms ++ (le32 4 ++ rest)) := by
      unfold header
      rw [show record (le32 natoms) = le32 4 ++ le32 natoms ++ le32 4 from rfl]
      simp only [List.append_assoc]
    rw [h2, List.drop_left' (by simp only [List.length_append, length_record, length_le32]; omega),
      List.take_left' (length_le32 _)]
  rw [e, i4_le32 _ hn]

theorem chunks_frames {n : Nat} (frames : List Frame) (hf : ∀ f ∈ frames, f.WF n) (t : Bytes) :
    (chunks (80 + 12 * n) frames.length ((frames.map Frame.encode).flatten ++ t)).map (fastStep f8 f4 n) =
      frames.map (frameVal f8 f4 acos false) := by
  have := chunks_flatten (80 + 12 * n) (frames.map Frame.encode)
    (by intro x hx; obtain ⟨f, h1, rfl⟩ := List.mem_map.1 hx; exact length_encode f (hf f h1)) t
  rw [List.length_map] at this
  rw [this, List.map_map]
  apply List.map_congr_left
  intro f h1
  have := fastStep_encode f8 f4 acos f (hf f h1) []
  rwa [List.append_nil] at this

theorem length_frames {n : Nat} (frames : List Frame) (hf : ∀ f ∈ frames, f.WF n) :
    (frames.map Frame.encode).flatten.length = (80 + 12 * n) * frames.length := by
  rw [flatten_length (80 + 12 * n) _
    (by intro x hx; obtain ⟨f, h1, rfl⟩ := List.mem_map.1 hx; exact length_encode f (hf f h1)), List.length_map]

theorem conv_frameVal (frames : List Frame) :
    (frames.map (frameVal f8 f4 acos false)).map (fun s => { s with crystConst := convAngles acos s.crystConst }) =
      frames.map (frameVal f8 f4 acos true) := by
  rw [List.map_map]
  apply List.map_congr_left
  intro f _
  rfl

/-- **C33** (what is read). A well formed file with `natoms` atoms and any number of frames, possibly
followed by an incomplete frame `part`: `read_dcd_data` returns the frames, in order, with the cell as
a, b, c, alpha, beta, gamma; with an incomplete frame at the end it refuses the file, while
`read_dcd_data_ref` returns the complete frames. -/
theorem C33_read (word : Bytes) (nstep : Nat) (other title : Bytes) (natoms : Nat) (frames : List Frame)
    (part : Bytes) (hw : word.length = 4) (ho : other.length = 76) (ht : title.length = 164)
    (hn : natoms < 2 ^ 31) (hf : ∀ f ∈ frames, f.WF natoms) (hp : part.length < 80 + 12 * natoms) (convang : Bool) :
    (part = [] → readFast f8 f4 acos (file word nstep other title natoms frames ++ part) convang =
      .ok (frames.map (frameVal f8 f4 acos convang))) ∧
    (part ≠ [] → readFast f8 f4 acos (file word nstep other title natoms frames ++ part) convang = .error .assertion) ∧
    (frames ≠ [] ∨ convang = false → readRef f8 f4 acos (file word nstep other title natoms frames ++ part) convang =
      .ok (frames.map (frameVal f8 f4 acos convang))) := by
  have hr : readNatoms (file word nstep other title natoms frames ++ part) =
      .ok ((natoms : Int), (frames.map Frame.encode).flatten ++ part) := by
    unfold file
    rw [List.append_assoc]
    exact readNatoms_file word nstep other title natoms _ hw ho ht hn
  have hl := length_frames frames hf
  have e1 : (4 + 6 * 8 + 7 * 4 + 3 * 4 * (natoms : Int) : Int) = ((80 + 12 * natoms : Nat) : Int) := by
    push_cast; omega
  refine ⟨?_, ?_, ?_⟩
  · rintro rfl
    unfold readFast
    rw [hr]
    simp only [e1]
    rw [List.append_nil, hl]
    rw [if_neg (by rw [← Int.natCast_emod]; simp), if_neg (by omega), ← Int.natCast_ediv, Int.toNat_natCast,
      Int.toNat_natCast, Nat.mul_div_cancel_left _ (by omega), sum_fastSizes]
    have := chunks_frames f8 f4 acos frames hf []
    rw [List.append_nil] at this
    rw [this]
    cases convang
    · rfl
    · simp only [if_true]; rw [conv_frameVal]
  · intro hne
    unfold readFast
    rw [hr]
    simp only [e1]
    rw [if_pos]
    rw [← Int.natCast_emod, List.length_append, hl, Nat.mul_add_mod, Nat.mod_eq_of_lt hp]
    have : 0 < part.length := List.length_pos_iff.2 hne
    omega
  · intro hc
    unfold readRef
    rw [hr]
    simp only
    rw [if_neg (by omega), Int.toNat_natCast, refLoop_eq f8 f4 natoms frames.length _
      (by rw [List.length_append, hl, Nat.mul_add_div (by omega), Nat.div_eq_of_lt hp, Nat.add_zero]),
      chunks_frames f8 f4 acos frames hf part]
    cases convang
    · rfl
    · simp only [if_true]
      rw [if_neg, conv_frameVal]
      simpa using hc

/-! ### The Fortran reader -/

theorem readRec_record (d : Bytes) (n : Nat) (rest : Bytes) (hd : d.length < 2 ^ 31) (hn : n ≤ d.length) :
    readRec n (record d ++ rest) = some (d.take n, rest) := by
  have e1 : (record d ++ rest).take 4 = le32 d.length := by
    unfold record
    rw [List.append_assoc, List.append_assoc, List.take_left' (length_le32 _)]
  have e2 : ((record d ++ rest).drop (4 + d.length)).take 4 = le32 d.length := by
    unfold record
    rw [List.append_assoc (le32 _ ++ d), List.drop_left' (by simp [length_le32]), List.take_left' (length_le32 _)]
  have e3 : ((record d ++ rest).drop 4).take d.length = d := by
    unfold record
    rw [List.append_assoc, List.append_assoc, List.drop_left' (length_le32 _), List.take_left' rfl]
  have e4 : (record d ++ rest).drop (8 + d.length) = rest := by
    rw [List.drop_left' (by rw [length_record]; omega)]
  unfold readRec
  simp only [e1, i4_le32 _ hd, Int.toNat_natCast, e2, e3, e4]
  rw [if_neg (by rw [List.length_append, length_record]; omega), if_neg (by simp), if_neg (by omega)]

theorem readStepF_encode {n : Nat} (f : Frame) (h : f.WF n) (hn : 4 * n < 2 ^ 31) (rest : Bytes) :
    readStepF n (f.encode ++ rest) = some ((f.a ++ f.gamma ++ f.b ++ f.beta ++ f.alpha ++ f.c,
      (f.atoms.map (fun p => p.1)).flatten, (f.atoms.map (fun p => p.2.1)).flatten,
      (f.atoms.map (fun p => p.2.2)).flatten), rest) := by
  have c := h.cell
  simp only [List.mem_cons, List.not_mem_nil, or_false, forall_eq_or_imp, forall_eq] at c
  have hx : ∀ g : (Bytes × Bytes × Bytes) → Bytes, (∀ p ∈ f.atoms, (g p).length = 4) →
      (f.atoms.map g).flatten.length = 4 * n := by
    intro g hg
    rw [flatten_length 4 _ (fun x hx => by obtain ⟨p, hp, rfl⟩ := List.mem_map.1 hx; exact hg p hp), List.length_map, h.natoms]
  have x1 : (f.atoms.map (fun p => p.1)).flatten.length = 4 * n := hx _ (fun p hp => (h.atoms p hp).1)
  have x2 := hx _ (fun p hp => (h.atoms p hp).2.1)
  have x3 := hx _ (fun p hp => (h.atoms p hp).2.2)
  have hcell : (f.a ++ f.gamma ++ f.b ++ f.beta ++ f.alpha ++ f.c).length = 48 := by
    simp only [List.length_append]; omega
  unfold readStepF Spec.Dcd.Frame.encode
  rw [List.append_assoc, List.append_assoc, List.append_assoc,
    readRec_record _ (6 * 8) _ (by omega) (by omega), List.take_of_length_le (by omega)]
  simp only
  rw [readRec_record _ (4 * n) _ (by omega) (by omega), List.take_of_length_le (by omega)]
  simp only
  rw [readRec_record _ (4 * n) _ (by omega) (by omega), List.take_of_length_le (by omega)]
  simp only
  rw [readRec_record _ (4 * n) _ (by omega) (by omega), List.take_of_length_le (by omega)]

theorem walk_frames {n : Nat} (hn : 4 * n < 2 ^ 31) : ∀ (frames : List Frame) (_ : ∀ f ∈ frames, f.WF n) (fuel : Nat),
    (frames.map Frame.encode).flatten.length < fuel →
    walk n fuel (frames.map Frame.encode).flatten = some frames.length := by
  intro frames
  induction frames with
  | nil => intro _ fuel h; cases fuel with
    | zero => omega
    | succ k => rfl
  | cons f frames ih =>
    intro hf fuel hlt
    have hlen := length_encode f (hf f (by simp))
    cases fuel with
    | zero => omega
    | succ k =>
      simp only [List.map_cons, List.flatten_cons, List.length_append] at hlt ⊢
      unfold walk
      rw [if_neg (by intro hc; have := congrArg List.length hc; simp [hlen] at this),
        readStepF_encode f (hf f (by simp)) hn]
      simp only
      rw [ih (fun g hg => hf g (by simp [hg])) k (by omega)]
      rfl

theorem readStepsF_frames {n : Nat} (hn : 4 * n < 2 ^ 31) (convang : Bool) : ∀ (frames : List Frame)
    (_ : ∀ f ∈ frames, f.WF n) (rest : Bytes),
    readStepsF f8 f4 acos convang n frames.length ((frames.map Frame.encode).flatten ++ rest) =
      some (frames.map (frameVal f8 f4 acos convang)) := by
  intro frames
  induction frames with
  | nil => intro _ _; rfl
  | cons f frames ih =>
    intro hf rest
    have h := hf f (by simp)
    have c := h.cell
    simp only [List.mem_cons, List.not_mem_nil, or_false, forall_eq_or_imp, forall_eq] at c
    have hch : ∀ g : (Bytes × Bytes × Bytes) → Bytes, (∀ p ∈ f.atoms, (g p).length = 4) →
        chunks 4 n (f.atoms.map g).flatten = f.atoms.map g := by
      intro g hg
      have := chunks_flatten 4 (f.atoms.map g) (fun x hx => by obtain ⟨p, hp, rfl⟩ := List.mem_map.1 hx; exact hg p hp) []
      rwa [List.length_map, h.natoms, List.append_nil] at this
    have hc8 : chunks 8 6 (f.a ++ f.gamma ++ f.b ++ f.beta ++ f.alpha ++ f.c) = [f.a, f.gamma, f.b, f.beta, f.alpha, f.c] := by
      have := chunks_flatten 8 [f.a, f.gamma, f.b, f.beta, f.alpha, f.c] (by simp; omega) []
      simpa using this
    simp only [List.map_cons, List.flatten_cons, List.append_assoc, List.length_cons]
    unfold readStepsF
    rw [readStepF_encode f h hn]
    simp only
    rw [ih (fun g hg => hf g (by simp [hg])), hch _ (fun p hp => (h.atoms p hp).1), hch _ (fun p hp => (h.atoms p hp).2.1),
      hch _ (fun p hp => (h.atoms p hp).2.2), hc8, zip_map3]
    cases convang <;> rfl

/-- **C33** (Fortran reader). On a well formed file with at least one atom and one frame, walking
through the file gives the same as the Python readers; with `nstephdr` the number of frames is
taken from the header: the first `nstep` frames are returned, `nstep = 0` (cp2k) stops the program. -/
theorem C33_fortran (word : Bytes) (nstep : Nat) (other title : Bytes) (natoms : Nat) (frames : List Frame)
    (hw : word.length = 4) (ho : other.length = 76) (ht : title.length = 164)
    (hn : 4 * natoms < 2 ^ 31) (hn0 : 0 < natoms) (hs : nstep < 2 ^ 31)
    (hf : ∀ f ∈ frames, f.WF natoms) (hne : frames ≠ []) (convang : Bool) :
    readF f8 f4 acos (file word nstep other title natoms frames) convang false =
      .ok (frames.map (frameVal f8 f4 acos convang)) ∧
    (0 < nstep → nstep ≤ frames.length → readF f8 f4 acos (file word nstep other title natoms frames) convang true =
      .ok ((frames.take nstep).map (frameVal f8 f4 acos convang))) ∧
    (nstep = 0 → readF f8 f4 acos (file word nstep other title natoms frames) convang true = .error .stop) := by
  have hh : readHeaderF (file word nstep other title natoms frames) =
      some ((nstep : Int), (natoms : Int), (frames.map Frame.encode).flatten) := by
    have hl1 : (word ++ le32 nstep ++ other).length = 84 := by
      simp only [List.length_append, length_le32]; omega
    unfold readHeaderF file header
    rw [List.append_assoc, List.append_assoc, readRec_record _ 84 _ (by omega) (by omega), List.take_of_length_le (by omega)]
    simp only
    rw [readRec_record _ 164 _ (by omega) (by omega)]
    simp only
    rw [readRec_record _ 4 _ (by rw [length_le32]; omega) (by rw [length_le32]; omega)]
    simp only
    rw [List.append_assoc word, List.drop_left' hw, List.take_left' (length_le32 _), i4_le32 _ hs,
      List.take_of_length_le (by rw [length_le32]; omega), i4_le32 _ (by omega)]
  have hpos : 0 < frames.length := List.length_pos_iff.2 hne
  refine ⟨?_, ?_, ?_⟩
  · unfold readF
    rw [hh]
    simp only [Bool.false_eq_true, if_false, Int.toNat_natCast]
    rw [walk_frames hn frames hf _ (by omega)]
    show (if (frames.length : Int) ≤ 0 then _ else _) = _
    rw [if_neg (by omega), if_neg (by omega)]
    have := readStepsF_frames f8 f4 acos hn convang frames hf []
    rw [List.append_nil] at this
    rw [Int.toNat_natCast, this]
  · intro h0 h1
    unfold readF
    rw [hh]
    simp only [if_true, Int.toNat_natCast]
    rw [if_neg (by omega), if_neg (by omega)]
    have := readStepsF_frames f8 f4 acos hn convang (frames.take nstep)
      (fun f hf' => hf f (List.mem_of_mem_take hf')) ((frames.drop nstep).map Frame.encode).flatten
    rw [List.length_take, Nat.min_eq_left h1, ← List.flatten_append, ← List.map_append, List.take_append_drop] at this
    rw [this]
  · rintro rfl
    unfold readF
    rw [hh]
    simp

/-- Non-vacuity: a frame with two atoms. -/
def exFrame : Frame :=
  { a := List.replicate 8 1, b := List.replicate 8 2, c := List.replicate 8 3,
    alpha := List.replicate 8 4, beta := List.replicate 8 5, gamma := List.replicate 8 6,
    atoms := [([1, 0, 0, 0], [2, 0, 0, 0], [3, 0, 0, 0]), ([4, 0, 0, 0], [5, 0, 0, 0], [6, 0, 0, 0])] }

theorem exFrame_wf : exFrame.WF 2 where
  cell := by intro x hx; simp only [exFrame, List.mem_cons, List.not_mem_nil, or_false] at hx; rcases hx with rfl | rfl | rfl | rfl | rfl | rfl <;> rfl
  atoms := by intro x hx; simp only [exFrame, List.mem_cons, List.not_mem_nil, or_false] at hx; rcases hx with rfl | rfl <;> exact ⟨rfl, rfl, rfl⟩
  natoms := rfl

example : ∃ word other title : Bytes, word.length = 4 ∧ other.length = 76 ∧ title.length = 164 ∧
    readFast le le id (file word 0 other title 2 [exFrame, exFrame]) false =
      .ok ([exFrame, exFrame].map (frameVal le le id false)) ∧
    (frameVal le le id false exFrame).coords = [(1, 2, 3), (4, 5, 6)] ∧
    ((frameVal le le id false exFrame).crystConst).head? = some 72340172838076673 := by
  refine ⟨List.replicate 4 0, List.replicate 76 0, List.replicate 164 0, rfl, rfl, rfl, ?_, by decide, by decide⟩
  have := (C33_read le le id (List.replicate 4 0) 0 (List.replicate 76 0) (List.replicate 164 0) 2 [exFrame, exFrame] []
    rfl rfl rfl (by omega) (by intro f hf; simp at hf; rw [hf]; exact exFrame_wf) (by simp) false).1 rfl
  rwa [List.append_nil] at this

end Pwtools.Dcd
