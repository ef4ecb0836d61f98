import Verif.Model.Vtk
import Verif.Spec.Vtk
import Verif.Proofs.BinaryIO
import Verif.Proofs.JsonNumber
import Verif.Proofs.MeshInsert
import Verif.Props.MeshUtilities
import Mathlib.Tactic.FieldSimp

/-! # Proofs about VTK files -/
namespace QuESo.IO
open QuESo.Spec QuESo.Spec.Vtk

/-! ## Numbers as text -/

theorem padded_digits (k n : Nat) : Json.Digits (padded k n) := by
  induction k generalizing n with
  | zero => simp [padded, Json.Digits]
  | succ k ih =>
    refine Json.Digits.append (ih _) ?_
    intro c hc
    rw [List.mem_singleton] at hc
    subst hc
    rw [Json.digitOf_char (Nat.mod_lt _ (by norm_num))]
    rfl

theorem padded_length (k n : Nat) : (padded k n).length = k := by
  induction k generalizing n with
  | zero => rfl
  | succ k ih => simp [padded, ih]

theorem padded_val (k n : Nat) (h : n < 10 ^ k) : Json.val 0 (padded k n) = n := by
  induction k generalizing n with
  | zero => simp at h; subst h; rfl
  | succ k ih =>
    rw [padded, Json.val_append, ih _ (by rw [Nat.div_lt_iff_lt_mul (by norm_num)]; rw [pow_succ] at h; exact h)]
    simp only [Json.val, Json.digitOf_char (Nat.mod_lt n (by norm_num : 0 < 10)), Option.getD_some]
    omega

theorem digit_byte {c : Char} (h : (Json.digitOf c).isSome) :
    48 ≤ UInt8.ofNat c.toNat ∧ UInt8.ofNat c.toNat ≤ 57 ∧ (UInt8.ofNat c.toNat).toNat - 48 = (Json.digitOf c).getD 0 := by
  unfold Json.digitOf at h ⊢
  split at h
  · rename_i hc
    rw [if_pos hc]
    obtain ⟨h1, h2⟩ := hc
    have : (UInt8.ofNat c.toNat).toNat = c.toNat := by simp; omega
    refine ⟨?_, ?_, by rw [this]; rfl⟩
    · rw [UInt8.le_iff_toNat_le, this]; exact h1
    · rw [UInt8.le_iff_toNat_le, this]; exact h2
  · cases h

theorem digits_text {t : List Char} (h : Json.Digits t) (a : Nat) : digits a (text t) = some (Json.val a t) := by
  induction t generalizing a with
  | nil => rfl
  | cons c t ih =>
    obtain ⟨h1, h2, h3⟩ := digit_byte (h c (by simp))
    simp only [text, List.map_cons, digits, Json.val]
    rw [if_pos ⟨h1, h2⟩, h3]
    exact ih (fun x hx => h x (by simp [hx])) _

theorem whole_text {t : List Char} (h : Json.Digits t) (hne : t ≠ []) : whole (text t) = some (Json.val 0 t) := by
  unfold whole
  rw [if_neg (by simpa [text] using hne), digits_text h]

theorem whole_nat (n : Nat) : whole (natText n) = some n := by
  rw [natText, whole_text (Json.decimal_digits n) (Json.decimal_ne n), Json.decimal_val]

theorem text_bytes {t : List Char} (h : Json.Digits t) : ∀ b ∈ text t, 48 ≤ b ∧ b ≤ 57 := by
  intro b hb
  obtain ⟨c, hc, rfl⟩ := List.mem_map.1 hb
  exact ⟨(digit_byte (h c hc)).1, (digit_byte (h c hc)).2.1⟩

theorem natText_bytes (n : Nat) : ∀ b ∈ natText n, 48 ≤ b ∧ b ≤ 57 := text_bytes (Json.decimal_digits n)

theorem natText_ne (n : Nat) : natText n ≠ [] := by simpa [natText, text] using Json.decimal_ne n

/-- The number that is printed. -/
def fixedValue (p : Nat) (q : ℚ) : ℚ :=
  if q < 0 then -((Json.roundNat (|q| * 10 ^ p) : ℚ) / 10 ^ p) else (Json.roundNat (|q| * 10 ^ p) : ℚ) / 10 ^ p

theorem fixedValue_near (p : Nat) (q : ℚ) : |fixedValue p q - q| ≤ 1 / (2 * 10 ^ p) := by
  have hp : (0 : ℚ) < 10 ^ p := by positivity
  have h := Json.roundNat_near (x := |q| * 10 ^ p) (by positivity)
  have key : abs ((Json.roundNat (|q| * 10 ^ p) : ℚ) / 10 ^ p - |q|) ≤ 1 / (2 * 10 ^ p) := by
    have : (Json.roundNat (|q| * 10 ^ p) : ℚ) / 10 ^ p - |q| = ((Json.roundNat (|q| * 10 ^ p) : ℚ) - |q| * 10 ^ p) / 10 ^ p := by
      field_simp
    rw [this, abs_div, abs_of_pos hp, div_le_div_iff₀ hp (by positivity)]
    linarith [mul_le_mul_of_nonneg_right h hp.le]
  unfold fixedValue
  split
  · rename_i hq
    rw [abs_of_neg hq] at key ⊢
    rw [← abs_neg]
    convert key using 2
    ring
  · rename_i hq
    rw [abs_of_nonneg (not_lt.1 hq)] at key ⊢
    exact key

theorem unsigned_fixed (p m : Nat) (hp : 0 < p) :
    unsigned (natText (m / 10 ^ p) ++ 46 :: text (padded p (m % 10 ^ p))) = some ((m : ℚ) / 10 ^ p) := by
  have h46 : ∀ b ∈ natText (m / 10 ^ p), (decide (b ≠ 46)) = true := by
    intro b hb
    have := (natText_bytes _ b hb).1
    simp only [ne_eq, decide_eq_true_eq]
    rintro rfl
    exact absurd this (by decide)
  unfold unsigned
  simp only
  rw [List.takeWhile_append_of_pos h46, List.dropWhile_append_of_pos h46]
  have e1 : List.takeWhile (fun x => decide (x ≠ 46)) (46 :: text (padded p (m % 10 ^ p))) = [] := rfl
  have e2 : List.dropWhile (fun x => decide (x ≠ 46)) (46 :: text (padded p (m % 10 ^ p))) = 46 :: text (padded p (m % 10 ^ p)) := rfl
  rw [e1, e2, List.append_nil, whole_nat]
  simp only [Option.bind_some]
  rw [whole_text (padded_digits _ _) (by intro h; have := padded_length p (m % 10 ^ p); rw [h] at this; simp at this; omega),
    padded_val _ _ (Nat.mod_lt _ (by positivity))]
  simp only [Option.map_some, Option.some.injEq, text, List.length_map, padded_length]
  have hpos : (10 : ℚ) ^ p ≠ 0 := by positivity
  field_simp
  have := Nat.div_add_mod m (10 ^ p)
  have hc : ((10 ^ p * (m / 10 ^ p) + m % 10 ^ p : ℕ) : ℚ) = (m : ℚ) := by exact_mod_cast this
  push_cast at hc
  rw [← hc]
  ring

theorem decimalNumber_fixed (p : Nat) (hp : 0 < p) (q : ℚ) : decimalNumber (fixedText p q) = some (fixedValue p q) := by
  unfold fixedText fixedValue
  simp only
  split
  · show decimalNumber (45 :: (natText _ ++ _)) = _
    simp only [decimalNumber]
    rw [unsigned_fixed _ _ hp]
    rfl
  · rw [List.nil_append, ← unsigned_fixed p _ hp]
    obtain ⟨b, r, hb⟩ := List.exists_cons_of_ne_nil (natText_ne (Json.roundNat (|q| * 10 ^ p) / 10 ^ p))
    have := (natText_bytes _ b (by rw [hb]; simp)).1
    rw [hb, List.cons_append]
    unfold decimalNumber
    split
    · rename_i heq
      rw [List.cons.injEq] at heq
      rw [heq.1] at this
      exact absurd this (by decide)
    · rfl

theorem fixedText_number (p : Nat) (q : ℚ) : NumberText (fixedText p q) := by
  refine ⟨by simp [fixedText, natText_ne], fun b hb => ?_⟩
  simp only [fixedText, List.mem_append, List.mem_cons] at hb
  rcases hb with (hb | hb) | hb | hb
  · split at hb
    · left; simpa using hb
    · cases hb
  · exact Or.inr (Or.inr (natText_bytes _ b hb))
  · exact Or.inr (Or.inl hb)
  · exact Or.inr (Or.inr (text_bytes (padded_digits _ _) b hb))

/-! ## Words -/

theorem word_eq {pre w : List UInt8} (hpre : ∀ b ∈ pre, blank b = true) (hw : ∀ b ∈ w, blank b = false) (hne : w ≠ [])
    {c : UInt8} (hc : blank c = true) (rest : List UInt8) : word (pre ++ (w ++ c :: rest)) = (w, c :: rest) := by
  unfold word
  simp only
  have hw' : ∀ b ∈ w, (!blank b) = true := fun b hb => by rw [hw b hb]; rfl
  have e : List.dropWhile blank (pre ++ (w ++ c :: rest)) = w ++ c :: rest := by
    rw [List.dropWhile_append_of_pos hpre]
    obtain ⟨a, r, rfl⟩ := List.exists_cons_of_ne_nil hne
    rw [List.cons_append, List.dropWhile_cons_of_neg (by rw [hw a (by simp)]; simp)]
  rw [e, List.takeWhile_append_of_pos hw', List.dropWhile_append_of_pos hw',
    List.takeWhile_cons_of_neg (by rw [hc]; simp), List.dropWhile_cons_of_neg (by rw [hc]; simp), List.append_nil]

theorem expect_eq {pre : List UInt8} (hpre : ∀ b ∈ pre, blank b = true) (w : String) (hw : ∀ b ∈ bytes w, blank b = false)
    (hne : bytes w ≠ []) {c : UInt8} (hc : blank c = true) (rest : List UInt8) :
    expect w (pre ++ (bytes w ++ c :: rest)) = some (c :: rest) := by
  unfold expect
  rw [word_eq hpre hw hne hc]
  simp

theorem digit_not_blank {b : UInt8} (h : 48 ≤ b ∧ b ≤ 57) : blank b = false := by
  unfold blank
  have h1 := UInt8.le_iff_toNat_le.1 h.1
  simp only [Bool.or_eq_false_iff, decide_eq_false_iff_not]
  refine ⟨⟨⟨?_, ?_⟩, ?_⟩, ?_⟩ <;> (rintro rfl; exact absurd h1 (by decide))

theorem count_eq {pre : List UInt8} (hpre : ∀ b ∈ pre, blank b = true) (n : Nat) {c : UInt8} (hc : blank c = true)
    (rest : List UInt8) : count (pre ++ (natText n ++ c :: rest)) = some (n, c :: rest) := by
  unfold count
  rw [word_eq hpre (fun b hb => digit_not_blank (natText_bytes n b hb)) (natText_ne n) hc, whole_nat]
  rfl

theorem number_not_blank {t : List UInt8} (h : NumberText t) : ∀ b ∈ t, blank b = false := by
  intro b hb
  rcases h.2 b hb with rfl | rfl | h
  · decide
  · decide
  · exact digit_not_blank h

theorem line_eq {l : List UInt8} (h : ∀ b ∈ l, b ≠ 10) (r : List UInt8) : line (l ++ 10 :: r) = (l, r) := by
  unfold line
  have h' : ∀ b ∈ l, (decide (b ≠ 10)) = true := fun b hb => by simpa using h b hb
  rw [List.takeWhile_append_of_pos h', List.dropWhile_append_of_pos h']
  simp

/-! ## Bytes -/

theorem bigEndian_append (l : List UInt8) (b : UInt8) : bigEndian (l ++ [b]) = 256 * bigEndian l + b.toNat := by
  simp [bigEndian, List.foldl_append]

theorem bigEndian_reverse (l : List UInt8) : bigEndian l.reverse = ofLeBytes l := by
  induction l with
  | nil => rfl
  | cons b l ih => rw [List.reverse_cons, bigEndian_append, ih, ofLeBytes, Nat.add_comm]

theorem encode_big (w v : Nat) : encode .big w v = (leBytes w v).reverse := (leBytes_reverse w v).symm

theorem bigEndian_encode (w v : Nat) : bigEndian (encode .big w v) = v % 256 ^ w := by
  rw [encode_big, bigEndian_reverse, ofLeBytes_leBytes]

theorem encode_length (w v : Nat) : (encode .big w v).length = w := by simp [encode]

/-! ## Reading -/

/-- What may be left of the last number. -/
def Pre : Encoding → List UInt8 → Prop
  | .binary, pre => pre = []
  | .ascii, pre => ∀ b ∈ pre, blank b = true

theorem Pre.nil (enc : Encoding) : Pre enc [] := by cases enc <;> simp [Pre]

theorem Pre.blank {enc : Encoding} {pre : List UInt8} (h : Pre enc pre) : ∀ b ∈ pre, Vtk.blank b = true := by
  cases enc
  · rw [show pre = [] from h]; simp
  · exact h

/-- The bytes `b` are read as `x`. -/
def Reads {α : Type _} (enc : Encoding) (read : List UInt8 → Option (α × List UInt8)) (b : List UInt8) (x : α) : Prop :=
  ∀ pre rest, Pre enc pre → ∃ pre', Pre enc pre' ∧ read (pre ++ (b ++ rest)) = some (x, pre' ++ rest)

theorem Reads.many {α : Type _} {enc : Encoding} {read : List UInt8 → Option (α × List UInt8)} {β : Type _} (l : List β)
    (b : β → List UInt8) (x : β → α) (h : ∀ a ∈ l, Reads enc read (b a) (x a)) :
    Reads enc (Vtk.many read l.length) (l.flatMap b) (l.map x) := by
  induction l with
  | nil => exact fun pre rest hpre => ⟨pre, hpre, rfl⟩
  | cons a l ih =>
    intro pre rest hpre
    obtain ⟨p1, q1, r1⟩ := h a (by simp) pre (l.flatMap b ++ rest) hpre
    obtain ⟨p2, q2, r2⟩ := ih (fun y hy => h y (by simp [hy])) p1 rest q1
    refine ⟨p2, q2, ?_⟩
    rw [List.flatMap_cons, List.append_assoc, List.length_cons, Vtk.many, r1]
    simp only [Option.bind_some]
    rw [r2]
    rfl

/-- A number as it is written. -/
def floatBytes (enc : Encoding) (bits : ℚ → UInt64) (c : UInt8) (x : ℚ) : List UInt8 :=
  match enc with
  | .binary => encode .big 8 (bits x).toNat
  | .ascii => fixedText 15 x ++ [c]

/-- A number as it is read. -/
def floatValue (enc : Encoding) (bits : ℚ → UInt64) (ofBits : UInt64 → ℚ) (x : ℚ) : ℚ :=
  match enc with
  | .binary => ofBits (bits x)
  | .ascii => fixedValue 15 x

theorem reads_float (enc : Encoding) (bits : ℚ → UInt64) (ofBits : UInt64 → ℚ) {c : UInt8} (hc : blank c = true) (x : ℚ) :
    Reads enc (float enc ofBits) (floatBytes enc bits c x) (floatValue enc bits ofBits x) := by
  intro pre rest hpre
  cases enc
  · refine ⟨[], rfl, ?_⟩
    rw [show pre = [] from hpre]
    have hl : 8 ≤ ([] ++ (floatBytes .binary bits c x ++ rest)).length := by simp [floatBytes, encode_length]
    refine (if_pos (e := none) hl).trans ?_
    simp only [floatBytes, List.nil_append, floatValue]
    rw [List.take_left' (encode_length _ _), List.drop_left' (encode_length _ _),
      bigEndian_encode]
    have : (bits x).toNat % 256 ^ 8 = (bits x).toNat := Nat.mod_eq_of_lt (by have := (bits x).toNat_lt; norm_num at this ⊢; exact this)
    rw [this]
    simp
  · refine ⟨[c], by simpa [Pre] using hc, ?_⟩
    simp only [floatBytes, float, floatValue]
    rw [List.append_assoc, List.cons_append, List.nil_append,
      word_eq hpre (number_not_blank (fixedText_number _ _)) (fixedText_number _ _).1 hc, decimalNumber_fixed _ (by norm_num)]
    rfl

/-- A whole number as it is written. -/
def intBytes (enc : Encoding) (c : UInt8) (n : Nat) : List UInt8 :=
  match enc with
  | .binary => encode .big 4 (n % 2 ^ 32)
  | .ascii => natText n ++ [c]

/-- A whole number as it is read. -/
def intValue (enc : Encoding) (n : Nat) : Int :=
  match enc with
  | .binary => signed32 (n % 2 ^ 32)
  | .ascii => n

theorem reads_int (enc : Encoding) {c : UInt8} (hc : blank c = true) (n : Nat) :
    Reads enc (int enc) (intBytes enc c n) (intValue enc n) := by
  intro pre rest hpre
  cases enc
  · refine ⟨[], rfl, ?_⟩
    rw [show pre = [] from hpre]
    have hl : 4 ≤ ([] ++ (intBytes .binary c n ++ rest)).length := by simp [intBytes, encode_length]
    refine (if_pos (e := none) hl).trans ?_
    simp only [intBytes, List.nil_append, intValue]
    rw [List.take_left' (encode_length _ _), List.drop_left' (encode_length _ _),
      bigEndian_encode]
    norm_num
  · refine ⟨[c], by simpa [Pre] using hc, ?_⟩
    simp only [intBytes, int, intValue]
    rw [List.append_assoc, List.cons_append, List.nil_append,
      word_eq hpre (fun b hb => digit_not_blank (natText_bytes n b hb)) (natText_ne n) hc, whole_nat]
    rfl

/-- A point as it is written. -/
def pointBytes' (enc : Encoding) (bits : ℚ → UInt64) (v : V3 ℚ) : List UInt8 :=
  floatBytes enc bits 32 v.x ++ floatBytes enc bits 32 v.y ++ floatBytes enc bits 10 v.z

theorem reads_point (enc : Encoding) (bits : ℚ → UInt64) (ofBits : UInt64 → ℚ) (v : V3 ℚ) :
    Reads enc (point enc ofBits) (pointBytes' enc bits v) (mapPoint (floatValue enc bits ofBits) v) := by
  intro pre rest hpre
  obtain ⟨p1, q1, r1⟩ := reads_float enc bits ofBits (c := 32) (by decide) v.x pre
    (floatBytes enc bits 32 v.y ++ (floatBytes enc bits 10 v.z ++ rest)) hpre
  obtain ⟨p2, q2, r2⟩ := reads_float enc bits ofBits (c := 32) (by decide) v.y p1 (floatBytes enc bits 10 v.z ++ rest) q1
  obtain ⟨p3, q3, r3⟩ := reads_float enc bits ofBits (c := 10) (by decide) v.z p2 rest q2
  refine ⟨p3, q3, ?_⟩
  unfold point pointBytes'
  rw [List.append_assoc, List.append_assoc, r1]
  simp only [Option.bind_some]
  rw [r2]
  simp only [Option.bind_some]
  rw [r3]
  rfl

theorem splitCells_eq (cs : List (List Int)) : splitCells cs.length (cs.flatMap fun c => (c.length : Int) :: c) = some cs := by
  induction cs with
  | nil => rfl
  | cons c cs ih =>
    rw [List.flatMap_cons, List.cons_append, List.length_cons, splitCells, if_pos ⟨by omega, by simp⟩]
    simp only [Int.toNat_natCast, List.drop_left, List.take_left, ih]
    rfl

/-- The parts of a file. -/
def fileBytes (enc : Encoding) (n m size : Nat) (pts cells types tail : List UInt8) : List UInt8 :=
  vtkHeader enc ++ (ascii "POINTS " ++ natText n ++ ascii " double\n") ++ pts ++
    (ascii "CELLS " ++ natText m ++ ascii " " ++ natText size ++ ascii "\n") ++ cells ++
    (ascii "CELL_TYPES " ++ natText m ++ ascii "\n") ++ types ++ tail

theorem header_lines (enc : Encoding) (r : List UInt8) :
    vtkHeader enc ++ r = bytes "# vtk DataFile Version 4.1" ++ 10 :: (bytes "vtk output" ++ 10 ::
      ((if enc = .binary then bytes "BINARY" else bytes "ASCII") ++ 10 :: (bytes "DATASET" ++ 32 :: (bytes "UNSTRUCTURED_GRID" ++ 10 :: r)))) := by
  have h1 : ascii "# vtk DataFile Version 4.1\n" = bytes "# vtk DataFile Version 4.1" ++ [10] := by decide +kernel
  have h2 : ascii "vtk output\n" = bytes "vtk output" ++ [10] := by decide +kernel
  have h3 : (if enc = .binary then ascii "BINARY\n" else ascii "ASCII\n") = (if enc = .binary then bytes "BINARY" else bytes "ASCII") ++ [10] := by
    cases enc <;> decide +kernel
  have h4 : ascii "DATASET UNSTRUCTURED_GRID\n" = bytes "DATASET" ++ 32 :: (bytes "UNSTRUCTURED_GRID" ++ [10]) := by decide +kernel
  rw [vtkHeader, h1, h2, h3, h4]
  simp only [List.append_assoc, List.cons_append, List.nil_append]

theorem blank_one {b : UInt8} (h : blank b = true) : ∀ x ∈ [b], blank x = true := by simpa using h

theorem bind_step {α β : Type _} {o : Option α} {a : α} {f : α → Option β} {r : Option β} (h : o = some a) (h2 : f a = r) :
    o.bind f = r := by subst h; exact h2

theorem line10 (r : List UInt8) : (line (10 :: r)).2 = r := by
  rw [show (10 :: r) = [] ++ 10 :: r from rfl, line_eq (by simp)]

theorem expect0 (w : String) (hw : ∀ b ∈ bytes w, blank b = false) (hne : bytes w ≠ []) {c : UInt8} (hc : blank c = true)
    (rest : List UInt8) : expect w (bytes w ++ c :: rest) = some (c :: rest) := by
  have := expect_eq (pre := []) (by simp) w hw hne hc rest
  rwa [List.nil_append] at this

theorem expect1 {b : UInt8} (hb : blank b = true) (w : String) (hw : ∀ b ∈ bytes w, blank b = false) (hne : bytes w ≠ [])
    {c : UInt8} (hc : blank c = true) (rest : List UInt8) : expect w (b :: (bytes w ++ c :: rest)) = some (c :: rest) :=
  expect_eq (pre := [b]) (blank_one hb) w hw hne hc rest

theorem count1 {b : UInt8} (hb : blank b = true) (n : Nat) {c : UInt8} (hc : blank c = true) (rest : List UInt8) :
    count (b :: (natText n ++ c :: rest)) = some (n, c :: rest) := count_eq (pre := [b]) (blank_one hb) n hc rest

/-- A file behind its first three lines. -/
def readBody (enc : Encoding) (ofBits : UInt64 → ℚ) (f : List UInt8) : Option (VtkGrid ℚ) :=
  (expect "DATASET" f).bind fun f => (expect "UNSTRUCTURED_GRID" f).bind fun f =>
    (expect "POINTS" f).bind fun f => (count f).bind fun n => (expect "double" n.2).bind fun f =>
      (many (point enc ofBits) n.1 (line f).2).bind fun ps =>
        (expect "CELLS" ps.2).bind fun f => (count f).bind fun m => (count m.2).bind fun size =>
          (many (int enc) size.1 (line size.2).2).bind fun ids => (splitCells m.1 ids.1).bind fun cells =>
            (expect "CELL_TYPES" ids.2).bind fun f => (count f).bind fun k =>
              if k.1 ≠ m.1 then none
              else
                (many (int enc) k.1 (line k.2).2).bind fun types =>
                  (scalars enc ofBits n.1 types.2).map fun sc => ⟨ps.1, cells, types.1, sc⟩

theorem read_body (enc : Encoding) (ofBits : UInt64 → ℚ) (r : List UInt8) :
    Vtk.read ofBits (vtkHeader enc ++ r) = readBody enc ofBits (bytes "DATASET" ++ 32 :: (bytes "UNSTRUCTURED_GRID" ++ 10 :: r)) := by
  rw [header_lines]
  unfold Vtk.read
  rw [line_eq (by decide +kernel)]
  dsimp only
  rw [line_eq (by decide +kernel)]
  dsimp only
  rw [line_eq (by cases enc <;> decide +kernel)]
  dsimp only
  rw [if_neg (by decide +kernel)]
  have he : (if (if enc = .binary then bytes "BINARY" else bytes "ASCII") = bytes "BINARY" then some Encoding.binary
      else if (if enc = .binary then bytes "BINARY" else bytes "ASCII") = bytes "ASCII" then some Encoding.ascii else none) = some enc := by
    cases enc <;> decide +kernel
  exact bind_step he rfl

attribute [local irreducible] Vtk.bytes ascii natText Vtk.word Vtk.line Vtk.count Vtk.expect Vtk.many vtkHeader

theorem read_file (enc : Encoding) (ofBits : UInt64 → ℚ) (n size : Nat) {pts cells types tail : List UInt8}
    {ps : List (V3 ℚ)} {ids ts : List Int} {cs : List (List Int)} {sc : Option (List ℚ)}
    (hp : Reads enc (many (point enc ofBits) n) pts ps) (hc : Reads enc (many (int enc) size) cells ids)
    (hs : splitCells cs.length ids = some cs) (ht : Reads enc (many (int enc) cs.length) types ts)
    (hsc : ∀ pre, Pre enc pre → scalars enc ofBits n (pre ++ tail) = some sc) :
    Vtk.read ofBits (fileBytes enc n cs.length size pts cells types tail) = some ⟨ps, cs, ts, sc⟩ := by
  have b32 : blank 32 = true := by decide
  have b10 : blank 10 = true := by decide
  have k1 : ascii "POINTS " = bytes "POINTS" ++ [32] := by decide +kernel
  have k2 : ascii " double\n" = 32 :: (bytes "double" ++ [10]) := by decide +kernel
  have k3 : ascii "CELLS " = bytes "CELLS" ++ [32] := by decide +kernel
  have k4 : ascii "CELL_TYPES " = bytes "CELL_TYPES" ++ [32] := by decide +kernel
  have k5 : ascii " " = [32] := by decide +kernel
  have k6 : ascii "\n" = [10] := by decide +kernel
  unfold fileBytes
  simp only [List.append_assoc, k1, k2, k3, k4, k5, k6, List.cons_append, List.nil_append]
  rw [read_body]
  obtain ⟨p1, q1, r1⟩ := hp [] (bytes "CELLS" ++ 32 :: (natText cs.length ++ 32 :: (natText size ++ 10 ::
    (cells ++ (bytes "CELL_TYPES" ++ 32 :: (natText cs.length ++ 10 :: (types ++ tail))))))) (Pre.nil enc)
  obtain ⟨p2, q2, r2⟩ := hc [] (bytes "CELL_TYPES" ++ 32 :: (natText cs.length ++ 10 :: (types ++ tail))) (Pre.nil enc)
  obtain ⟨p3, q3, r3⟩ := ht [] tail (Pre.nil enc)
  rw [List.nil_append] at r1 r2 r3
  unfold readBody
  refine bind_step (expect0 "DATASET" (by decide +kernel) (by decide +kernel) b32 _) ?_
  refine bind_step (expect1 b32 "UNSTRUCTURED_GRID" (by decide +kernel) (by decide +kernel) b10 _) ?_
  refine bind_step (expect1 b10 "POINTS" (by decide +kernel) (by decide +kernel) b32 _) ?_
  refine bind_step (count1 b32 n b32 _) ?_
  refine bind_step (expect1 b32 "double" (by decide +kernel) (by decide +kernel) b10 _) ?_
  refine bind_step (by rw [line10]; exact r1) ?_
  refine bind_step (expect_eq q1.blank "CELLS" (by decide +kernel) (by decide +kernel) b32 _) ?_
  refine bind_step (count1 b32 cs.length b32 _) ?_
  refine bind_step (count1 b32 size b10 _) ?_
  refine bind_step (by rw [line10]; exact r2) ?_
  refine bind_step hs ?_
  refine bind_step (expect_eq q2.blank "CELL_TYPES" (by decide +kernel) (by decide +kernel) b32 _) ?_
  refine bind_step (count1 b32 cs.length b10 _) ?_
  dsimp only
  rw [if_neg (by simp)]
  refine bind_step (by rw [line10]; exact r3) ?_
  dsimp only
  rw [hsc p3 q3]
  rfl

theorem scalars_none (enc : Encoding) (ofBits : UInt64 → ℚ) (n : Nat) (pre : List UInt8) (h : Pre enc pre) :
    scalars enc ofBits n (pre ++ []) = some none := by
  unfold scalars
  rw [if_pos]
  rw [List.append_nil, List.all_eq_true]
  exact h.blank

theorem scalars_some (enc : Encoding) (ofBits : UInt64 → ℚ) (n : Nat) {ws : List UInt8} {vs : List ℚ}
    (hw : Reads enc (many (float enc ofBits) n) ws vs) (pre : List UInt8) (h : Pre enc pre) :
    scalars enc ofBits n (pre ++ (ascii "POINT_DATA " ++ natText n ++ ascii "\n" ++ ascii "SCALARS Weights double 1\n" ++
      ascii "LOOKUP_TABLE default\n" ++ ws)) = some (some vs) := by
  have b32 : blank 32 = true := by decide
  have b10 : blank 10 = true := by decide
  have k1 : ascii "POINT_DATA " = bytes "POINT_DATA" ++ [32] := by decide +kernel
  have k2 : ascii "SCALARS Weights double 1\n" = bytes "SCALARS" ++ 32 :: (bytes "Weights" ++ 32 :: (bytes "double" ++ 32 :: (bytes "1" ++ [10]))) := by
    decide +kernel
  have k3 : ascii "LOOKUP_TABLE default\n" = bytes "LOOKUP_TABLE" ++ 32 :: (bytes "default" ++ [10]) := by decide +kernel
  have k6 : ascii "\n" = [10] := by decide +kernel
  unfold scalars
  simp only [List.append_assoc, k1, k2, k3, k6, List.cons_append, List.nil_append]
  rw [if_neg, expect_eq h.blank "POINT_DATA" (by decide +kernel) (by decide +kernel) b32]
  · obtain ⟨p1, q1, r1⟩ := hw [] [] (Pre.nil enc)
    rw [List.nil_append, List.append_nil, List.append_nil] at r1
    rw [Option.bind_some]
    refine bind_step (count1 b32 n b10 _) ?_
    rw [if_neg (by simp)]
    refine bind_step (expect1 b10 "SCALARS" (by decide +kernel) (by decide +kernel) b32 _) ?_
    rw [show ∀ r, word (32 :: r) = word ([32] ++ r) from fun _ => rfl,
      word_eq (blank_one b32) (w := bytes "Weights") (by decide +kernel) (by decide +kernel) b32]
    refine bind_step (expect1 b32 "double" (by decide +kernel) (by decide +kernel) b32 _) ?_
    refine bind_step (expect1 b32 "1" (by decide +kernel) (by decide +kernel) b10 _) ?_
    refine bind_step (expect1 b10 "LOOKUP_TABLE" (by decide +kernel) (by decide +kernel) b32 _) ?_
    refine bind_step (expect1 b32 "default" (by decide +kernel) (by decide +kernel) b10 _) ?_
    refine bind_step (by rw [line10]; exact r1) ?_
    rw [if_pos (List.all_eq_true.2 q1.blank)]
  · rw [List.all_eq_true]
    intro hall
    have := hall 80 (List.mem_append_right _ (List.mem_append_left _ (by decide +kernel)))
    exact absurd this (by decide)

/-! ## Writing -/

/-- The numbers of a section as bytes. -/
def sectionBytes (enc : Encoding) (ops : List WriteOp) (txt : List UInt8) : List UInt8 :=
  match enc with
  | .binary => ops.flatMap (opBytes .big)
  | .ascii => txt

theorem vtkSection_eq (host : Endian) (enc : Encoding) (line : List UInt8) (ops : List WriteOp) (txt file : List UInt8) :
    vtkSection host enc line ops txt file = some (file ++ line ++ sectionBytes enc ops txt) := by
  cases enc
  · exact session_eq host .big defaultBuffer (file ++ line) ops
  · rfl

theorem section_flatMap {α : Type _} (enc : Encoding) (l : List α) (ops : α → List WriteOp) (txt : α → List UInt8) :
    sectionBytes enc (l.flatMap ops) (l.flatMap txt) = l.flatMap fun a => sectionBytes enc (ops a) (txt a) := by
  cases enc
  · exact List.flatMap_assoc
  · rfl

theorem section_point (enc : Encoding) (bits : ℚ → UInt64) (v : V3 ℚ) :
    sectionBytes enc (pointOps bits v) (pointLine v) = pointBytes' enc bits v := by
  cases enc
  · simp [sectionBytes, pointOps, opBytes, pointBytes', floatBytes]
  · simp [sectionBytes, pointLine, fmtPoint, pointBytes', floatBytes]

/-- The numbers of a cell with the characters behind them. -/
def withSeps : Nat → List Nat → List (Nat × UInt8)
  | a, [] => [(a, 10)]
  | a, b :: l => (a, 32) :: withSeps b l

theorem withSeps_fst (a : Nat) (l : List Nat) : (withSeps a l).map (·.1) = a :: l := by
  induction l generalizing a with
  | nil => rfl
  | cons b l ih => simp [withSeps, ih]

theorem withSeps_blank (a : Nat) (l : List Nat) : ∀ p ∈ withSeps a l, blank p.2 = true := by
  induction l generalizing a with
  | nil => intro p hp; simp [withSeps] at hp; subst hp; exact (by decide : blank 10 = true)
  | cons b l ih =>
    intro p hp
    rcases List.mem_cons.1 hp with rfl | hp
    · exact (by decide : blank 32 = true)
    · exact ih b p hp

theorem withSeps_bytes (enc : Encoding) (a : Nat) (l : List Nat) :
    sectionBytes enc (u32 a :: l.map u32) (natText a ++ (l.flatMap fun b => ascii " " ++ natText b) ++ ascii "\n") =
      (withSeps a l).flatMap fun p => intBytes enc p.2 p.1 := by
  have k5 : ascii " " = [32] := by decide +kernel
  have k6 : ascii "\n" = [10] := by decide +kernel
  cases enc
  · simp only [sectionBytes]
    induction l generalizing a with
    | nil => simp [withSeps, intBytes, u32, opBytes]
    | cons b l ih =>
      rw [withSeps, show ((a, 32) :: withSeps b l).flatMap (fun p => intBytes _ p.2 p.1) = intBytes _ 32 a ++ (withSeps b l).flatMap (fun p => intBytes _ p.2 p.1) from rfl, ← ih b]
      simp [intBytes, u32, opBytes]
  · simp only [sectionBytes]
    induction l generalizing a with
    | nil => simp [withSeps, intBytes, k6]
    | cons b l ih =>
      rw [withSeps, show ((a, 32) :: withSeps b l).flatMap (fun p => intBytes _ p.2 p.1) = intBytes _ 32 a ++ (withSeps b l).flatMap (fun p => intBytes _ p.2 p.1) from rfl, ← ih b]
      simp [intBytes, k5, k6]

/-- Cells in a file. -/
def cellsBytes (enc : Encoding) (cells : List (List Nat)) : List UInt8 :=
  cells.flatMap fun c => (withSeps c.length c).flatMap fun p => intBytes enc p.2 p.1

theorem reads_cells (enc : Encoding) (cells : List (List Nat)) (size : Nat) (hs : size = (cells.map fun c => c.length + 1).sum) :
    Reads enc (many (int enc) size) (cellsBytes enc cells) (cells.flatMap fun c => intValue enc c.length :: c.map (intValue enc)) := by
  have h := Reads.many (enc := enc) (read := int enc) (cells.flatMap fun c => withSeps c.length c) (fun p => intBytes enc p.2 p.1)
    (fun p => intValue enc p.1) (by
      intro p hp
      obtain ⟨c, _, hc⟩ := List.mem_flatMap.1 hp
      exact reads_int enc (withSeps_blank _ _ p hc) p.1)
  have e1 : (cells.flatMap fun c => withSeps c.length c).length = size := by
    rw [List.length_flatMap, hs]
    congr 1
    refine List.map_congr_left fun c _ => ?_
    have := congrArg List.length (withSeps_fst c.length c)
    simpa using this
  rw [e1, List.flatMap_assoc, List.map_flatMap] at h
  have e2 : (cells.flatMap fun c => (withSeps c.length c).map fun p => intValue enc p.1) =
      cells.flatMap fun c => intValue enc c.length :: c.map (intValue enc) := by
    congr 1
    funext c
    have := congrArg (List.map (intValue enc)) (withSeps_fst c.length c)
    simpa [Function.comp_def] using this
  rw [e2] at h
  exact h

theorem intValue_small (enc : Encoding) {n : Nat} (h : n < 2 ^ 31) : intValue enc n = n := by
  cases enc
  · simp only [intValue, signed32]
    rw [Nat.mod_eq_of_lt (by omega), if_pos h]
  · rfl

theorem split_cells (enc : Encoding) (cells : List (List Nat)) (hl : ∀ c ∈ cells, c.length < 2 ^ 31) :
    splitCells (cells.map (List.map (intValue enc))).length (cells.flatMap fun c => intValue enc c.length :: c.map (intValue enc)) =
      some (cells.map (List.map (intValue enc))) := by
  rw [← splitCells_eq (cells.map (List.map (intValue enc))), List.flatMap_map]
  congr 1
  induction cells with
  | nil => rfl
  | cons c cells ih =>
    rw [List.flatMap_cons, List.flatMap_cons, ih fun c hc => hl c (by simp [hc]), intValue_small enc (hl c (by simp)), List.length_map]

theorem reads_types (enc : Encoding) (n k : Nat) :
    Reads enc (many (int enc) n) ((List.range n).flatMap fun _ => intBytes enc 10 k) (List.replicate n (intValue enc k)) := by
  have h := Reads.many (enc := enc) (read := int enc) (List.range n) (fun _ => intBytes enc 10 k) (fun _ => intValue enc k)
    (fun _ _ => reads_int enc (by decide) k)
  rw [List.length_range] at h
  convert h using 1
  simp

/-- Points, cells and types as they are read. -/
def gridOf (enc : Encoding) (bits : ℚ → UInt64) (ofBits : UInt64 → ℚ) (pts : List (V3 ℚ)) (cells : List (List Nat)) (k : Nat)
    (sc : Option (List ℚ)) : VtkGrid ℚ :=
  ⟨pts.map (mapPoint (floatValue enc bits ofBits)), cells.map (List.map (intValue enc)), List.replicate cells.length (intValue enc k), sc⟩

theorem section_type (enc : Encoding) (k : Nat) : sectionBytes enc [u32 k] (natText k ++ ascii "\n") = intBytes enc 10 k := by
  have := withSeps_bytes enc k []
  simpa [withSeps] using this

theorem read_grid (enc : Encoding) (bits : ℚ → UInt64) (ofBits : UInt64 → ℚ) (pts : List (V3 ℚ)) (cells : List (List Nat)) (k size : Nat)
    (hs : size = (cells.map fun c => c.length + 1).sum) (hl : ∀ c ∈ cells, c.length < 2 ^ 31) (tail : List UInt8) (sc : Option (List ℚ))
    (hsc : ∀ pre, Pre enc pre → scalars enc ofBits pts.length (pre ++ tail) = some sc) :
    Vtk.read ofBits (fileBytes enc pts.length cells.length size (pts.flatMap (pointBytes' enc bits)) (cellsBytes enc cells)
      ((List.range cells.length).flatMap fun _ => intBytes enc 10 k) tail) = some (gridOf enc bits ofBits pts cells k sc) := by
  have hp := Reads.many (enc := enc) (read := point enc ofBits) pts (pointBytes' enc bits) (mapPoint (floatValue enc bits ofBits))
    fun v _ => reads_point enc bits ofBits v
  have ht := reads_types enc cells.length k
  have hc := split_cells enc cells hl
  have hlen : (cells.map (List.map (intValue enc))).length = cells.length := by simp
  have := read_file enc ofBits pts.length size hp (reads_cells enc cells size hs) hc (by rw [hlen]; exact ht) hsc
  rw [hlen] at this
  exact this

theorem flatMap_get {α β : Type _} (k : Nat) (f : α → List β) (hk : ∀ a, (f a).length = k) (l : List α) (i j : Nat) (hj : j < k) :
    (l.flatMap f)[k * i + j]? = l[i]?.bind fun a => (f a)[j]? := by
  induction l generalizing i with
  | nil => simp
  | cons a l ih =>
    rw [List.flatMap_cons]
    cases i with
    | zero => rw [List.getElem?_append_left (by rw [hk]; omega)]; simp
    | succ i =>
      rw [List.getElem?_append_right (by rw [hk]; nlinarith), hk]
      have : k * (i + 1) + j - k = k * i + j := by rw [Nat.mul_add]; omega
      rw [this, ih]
      simp

theorem cellPoints_eq (enc : Encoding) (bits : ℚ → UInt64) (ofBits : UInt64 → ℚ) (pts : List (V3 ℚ)) (cells : List (List Nat)) (k : Nat)
    (sc : Option (List ℚ)) (i : Nat) {ids : List Nat} (hi : cells[i]? = some ids) (hb : ∀ id ∈ ids, id < 2 ^ 31) {vs : List (V3 ℚ)}
    (hv : ids.mapM (fun id => pts[id]?) = some vs) :
    (gridOf enc bits ofBits pts cells k sc).cellPoints i = some (vs.map (mapPoint (floatValue enc bits ofBits))) := by
  unfold VtkGrid.cellPoints gridOf
  simp only [List.getElem?_map, hi, Option.map_some, Option.bind_some]
  clear hi
  induction ids generalizing vs with
  | nil => simp at hv; subst hv; rfl
  | cons a ids ih =>
    rw [List.mapM_cons] at hv
    cases ha : pts[a]? with
    | none => rw [ha] at hv; simp at hv
    | some v =>
      rw [ha] at hv
      cases hr : ids.mapM (fun id => pts[id]?) with
      | none => rw [hr] at hv; simp at hv
      | some r =>
        rw [hr] at hv
        simp at hv
        subst hv
        rw [List.map_cons, List.mapM_cons, ih (fun id hid => hb id (by simp [hid])) hr, intValue_small enc (hb a (by simp))]
        simp [ha]

/-! ## Meshes -/

theorem collectCorners_eq (cs : List (V3 (V3 ℚ))) :
    collectCorners cs = (cs.flatMap fun c => [c.x, c.y, c.z], (List.range cs.length).map fun i => ⟨3 * i, 3 * i + 1, 3 * i + 2⟩) := by
  unfold collectCorners
  induction cs using List.reverseRecOn with
  | nil => rfl
  | append_singleton cs c ih =>
    rw [List.foldl_append, ih]
    have hl : (cs.flatMap fun c => [c.x, c.y, c.z]).length = 3 * cs.length := by
      rw [List.length_flatMap]
      simp [Nat.mul_comm]
    simp [List.range_succ, hl]

theorem u32_list (a b c : Nat) : [u32 3, u32 a, u32 b, u32 c] = u32 3 :: [a, b, c].map u32 := rfl

theorem writeMesh_eq (host : Endian) (enc : Encoding) (bits : ℚ → UInt64) (m : Mesh ℚ) (cs : List (V3 (V3 ℚ)))
    (h : (List.range m.triangles.length).mapM m.corners = some cs) (hl : cs.length = m.triangles.length) :
    writeMeshVTK host enc bits m = some (fileBytes enc (cs.flatMap fun c => [c.x, c.y, c.z]).length
      ((List.range cs.length).map fun i => [3 * i, 3 * i + 1, 3 * i + 2]).length (cs.length * 4)
      ((cs.flatMap fun c => [c.x, c.y, c.z]).flatMap (pointBytes' enc bits))
      (cellsBytes enc ((List.range cs.length).map fun i => [3 * i, 3 * i + 1, 3 * i + 2]))
      ((List.range ((List.range cs.length).map fun i => [3 * i, 3 * i + 1, 3 * i + 2]).length).flatMap fun _ => intBytes enc 10 5) []) := by
  unfold writeMeshVTK
  simp only [h, Option.bind_some, vtkSection_eq, collectCorners_eq, section_flatMap, section_point, section_type]
  rw [← hl, fileBytes]
  simp only [List.length_map, List.length_range, List.append_nil, List.flatMap_map, cellsBytes]
  have hcell : ∀ i : Nat, sectionBytes enc [u32 3, u32 (3 * i), u32 (3 * i + 1), u32 (3 * i + 2)]
      (natText 3 ++ ascii " " ++ natText (3 * i) ++ ascii " " ++ natText (3 * i + 1) ++ ascii " " ++ natText (3 * i + 2) ++ ascii "\n") =
      (withSeps [3 * i, 3 * i + 1, 3 * i + 2].length [3 * i, 3 * i + 1, 3 * i + 2]).flatMap fun p => intBytes enc p.2 p.1 := by
    intro i
    rw [← withSeps_bytes]
    simp
  simp only [hcell]

/-! ## Elements -/

theorem index32 (i j : Nat) : (8 * UInt32.ofNat i + UInt32.ofNat j).toNat = (UInt32.ofNat (8 * i + j)).toNat := by
  simp only [UInt32.toNat_add, UInt32.toNat_mul, UInt32.toNat_ofNat, UInt32.toNat_ofNat', UInt32.reduceToNat]
  omega

/-- The cells of the file of the elements. -/
def hexCells (n : Nat) : List (List Nat) := (List.range n).map fun i => (List.range 8).map fun j => 8 * i + j

theorem elementVertices_length (s : BGrid.State (Embedded.Elem ℚ)) : (elementVertices s).length = s.numActive * 8 := by
  unfold elementVertices
  rw [List.length_flatMap]
  simp [hexahedronVertices, BGrid.State.views, BGrid.State.numActive, Function.comp_def, Nat.add_mul]

theorem writeElements_eq (host : Endian) (enc : Encoding) (bits : ℚ → UInt64) (s : BGrid.State (Embedded.Elem ℚ)) :
    writeElementsVTK host enc bits s = some (fileBytes enc (elementVertices s).length (hexCells s.numActive).length (s.numActive * 9)
      ((elementVertices s).flatMap (pointBytes' enc bits)) (cellsBytes enc (hexCells s.numActive))
      ((List.range (hexCells s.numActive).length).flatMap fun _ => intBytes enc 10 12) []) := by
  unfold writeElementsVTK
  simp only [Option.bind_some, vtkSection_eq, section_flatMap, section_point, section_type]
  have hcell : ∀ i : Nat, sectionBytes enc (u32 8 :: (List.range 8).map fun j => .value 4 (8 * UInt32.ofNat i + UInt32.ofNat j).toNat)
      (natText 8 ++ ((List.range 8).flatMap fun j => ascii " " ++ natText (8 * i + j)) ++ ascii "\n") =
      (withSeps ((List.range 8).map fun j => 8 * i + j).length ((List.range 8).map fun j => 8 * i + j)).flatMap
        fun p => intBytes enc p.2 p.1 := by
    intro i
    rw [← withSeps_bytes, List.map_map, List.flatMap_map, List.length_map, List.length_range]
    congr 1
    congr 1
    refine List.map_congr_left fun j _ => ?_
    rw [index32]
    rfl
  simp only [hcell]
  rw [fileBytes, elementVertices_length]
  simp only [cellsBytes, hexCells, List.length_map, List.length_range, List.append_nil, List.flatMap_map]

theorem hexCells_size (n : Nat) : n * 9 = ((hexCells n).map fun c => c.length + 1).sum := by
  simp [hexCells, Function.comp_def]

/-! ## Points -/

theorem numPoints_eq (l : List (BGrid.Kind × Nat × Embedded.Elem ℚ)) (a : Nat) :
    l.foldl (fun acc e => acc + (globalPoints e.2.2).length) a = a + (l.flatMap fun e => globalPoints e.2.2).length := by
  induction l generalizing a with
  | nil => rfl
  | cons e l ih => rw [List.foldl_cons, ih, List.flatMap_cons, List.length_append, Nat.add_assoc]

/-- All points of all elements. -/
def allPoints (s : BGrid.State (Embedded.Elem ℚ)) : List (Mapping.VolPoint ℚ) := (s.views .all).flatMap fun e => globalPoints e.2.2

theorem section_float (enc : Encoding) (bits : ℚ → UInt64) (x : ℚ) :
    sectionBytes enc [.value 8 (bits x).toNat] (fixedText 15 x ++ ascii "\n") = floatBytes enc bits 10 x := by
  have k6 : ascii "\n" = [10] := by decide +kernel
  cases enc
  · simp [sectionBytes, opBytes, floatBytes]
  · simp [sectionBytes, floatBytes, k6]

theorem writePoints_eq (host : Endian) (enc : Encoding) (bits : ℚ → UInt64) (s : BGrid.State (Embedded.Elem ℚ)) :
    writePointsVTK host enc bits s = some (fileBytes enc ((allPoints s).map (·.pos)).length
      ((List.range (allPoints s).length).map fun i => [i]).length ((allPoints s).length * 2)
      (((allPoints s).map (·.pos)).flatMap (pointBytes' enc bits)) (cellsBytes enc ((List.range (allPoints s).length).map fun i => [i]))
      ((List.range ((List.range (allPoints s).length).map fun i => [i]).length).flatMap fun _ => intBytes enc 10 1)
      (ascii "POINT_DATA " ++ natText ((allPoints s).map (·.pos)).length ++ ascii "\n" ++ ascii "SCALARS Weights double 1\n" ++
        ascii "LOOKUP_TABLE default\n" ++ (allPoints s).flatMap fun q => floatBytes enc bits 10 q.weight)) := by
  unfold writePointsVTK
  simp only [Option.bind_some, vtkSection_eq, section_flatMap, section_point, section_type, section_float, numPoints_eq, Nat.zero_add]
  have hcell : ∀ i : Nat, sectionBytes enc [u32 1, u32 i] (natText 1 ++ ascii " " ++ natText i ++ ascii "\n") =
      (withSeps [i].length [i]).flatMap fun p => intBytes enc p.2 p.1 := by
    intro i
    rw [← withSeps_bytes]
    simp
  simp only [hcell]
  rw [fileBytes]
  simp only [cellsBytes, List.length_map, List.length_range, List.flatMap_map, allPoints, List.append_assoc]

/-! ## Conditions -/

variable {K : Type _}

theorem accumulate32 (l : List (Mesh K)) (a : UInt32) :
    l.foldl (fun (acc : UInt32) m => acc + UInt32.ofNat m.triangles.length) a =
      a + UInt32.ofNat (l.map fun m => m.triangles.length).sum := by
  induction l generalizing a with
  | nil => simp
  | cons m l ih => rw [List.foldl_cons, ih, List.map_cons, List.sum_cons, UInt32.ofNat_add, UInt32.add_assoc]

theorem mapM_of_get {α β : Type*} (f : α → Option β) : ∀ (l : List α) (r : List β), l.length = r.length →
    (∀ (i : Nat) a, l[i]? = some a → f a = r[i]?) → l.mapM f = some r
  | [], r, hl, _ => by rw [List.eq_nil_of_length_eq_zero hl.symm]; rfl
  | a :: l, [], hl, _ => by simp at hl
  | a :: l, b :: r, hl, h => by
    rw [List.mapM_cons, h 0 a rfl, mapM_of_get f l r (by simpa using hl) fun i x hx => h (i + 1) x hx]
    rfl

theorem mapM_visit {ms : List (Mesh K)} {tss : List (List (Tri K))} (h : List.Forall₂ (fun (m : Mesh K) ts => m.visit = some ts) ms tss) :
    ms.mapM Mesh.visit = some tss := by
  induction h with
  | nil => rfl
  | cons h _ ih => rw [List.mapM_cons, h, ih]; rfl

theorem sum_triangles {ms : List (Mesh K)} {tss : List (List (Tri K))} (h : List.Forall₂ (fun (m : Mesh K) ts => m.visit = some ts) ms tss) :
    (ms.map fun m => m.triangles.length).sum = tss.flatten.length := by
  induction h with
  | nil => rfl
  | cons h _ ih => rw [List.map_cons, List.sum_cons, ih, List.flatten_cons, List.length_append, (visit_spec h).1]

/-! ## Files -/

theorem get_put_self (fs : Files) (n c : List UInt8) : (fs.put n c).get n = some c := by simp [Files.put, Files.get]

theorem get_put_other (fs : Files) {n k : List UInt8} (h : k ≠ n) (c : List UInt8) : (fs.put n c).get k = fs.get k := by
  unfold Files.put Files.get
  rw [List.find?_cons_of_neg (by simpa using Ne.symm h)]
  congr 1
  induction fs with
  | nil => rfl
  | cons f fs ih =>
    by_cases hf : f.1 = n
    · rw [List.filter_cons_of_neg (by simpa using hf), ih, List.find?_cons_of_neg (by rw [hf]; simpa using Ne.symm h)]
    · rw [List.filter_cons_of_pos (by simpa using hf)]
      by_cases hk : f.1 = k
      · rw [List.find?_cons_of_pos (by simpa using hk), List.find?_cons_of_pos (by simpa using hk)]
      · rw [List.find?_cons_of_neg (by simpa using hk), List.find?_cons_of_neg (by simpa using hk), ih]

theorem put_put (fs : Files) (n a b : List UInt8) : (fs.put n a).put n b = fs.put n b := by
  simp [Files.put, List.filter_filter]

theorem put_length (fs : Files) (n a : List UInt8) : (fs.put n a).length ≤ fs.length + 1 := by
  simp only [Files.put, List.length_cons]
  exact Nat.succ_le_succ (List.length_filter_le _ _)

theorem conditionFile_inj (dir : List UInt8) {a b : Nat} (h : conditionFile dir a = conditionFile dir b) : a = b := by
  unfold conditionFile at h
  rw [List.append_assoc, List.append_assoc, List.append_assoc, List.append_assoc] at h
  have := List.append_cancel_right (List.append_cancel_left (List.append_cancel_left h))
  have hw := whole_nat a
  rw [this, whole_nat b] at hw
  exact (Option.some.inj hw).symm

theorem conditionFile_ne (dir e : List UInt8) (he : e.getLast? = some 107 ∨ e.getLast? = some 110) (a : Nat) : conditionFile dir a ≠ dir ++ e := by
  intro h
  have h1 : (conditionFile dir a).getLast? = some 108 := by
    unfold conditionFile
    have : ascii ".stl" = [46, 115, 116] ++ [108] := by decide +kernel
    rw [this, ← List.append_assoc]
    exact List.getLast?_concat
  have hne : e ≠ [] := by rintro rfl; simp at he
  rw [h, List.getLast?_append_of_ne_nil _ hne] at h1
  rcases he with he | he <;> (rw [he] at h1; exact absurd h1 (by decide))

theorem accumulate_fst (l : List (BGrid.Kind × Nat × Embedded.Elem ℚ)) (a : ℚ × Nat × Nat) :
    (l.foldl (fun (a : ℚ × Nat × Nat) e =>
      let r := a.1 + Mapping.detJ e.2.2.bounds * Embedded.weightSum e.2.2.points
      match e.1 with
      | .trimmed => (r, a.2.1, a.2.2 + e.2.2.points.length)
      | .untrimmed => (r, a.2.1 + e.2.2.points.length, a.2.2)) a).1 =
      a.1 + (l.flatMap fun e => (globalPoints e.2.2).map (·.weight)).sum := by
  induction l generalizing a with
  | nil => simp
  | cons e l ih =>
    have hw : ∀ (ps : List (Mapping.VolPoint ℚ)) (d b : ℚ), d * ps.foldl (fun a p => a + p.weight) b =
        d * b + (ps.map fun q => q.weight * d).sum := by
      intro ps d
      induction ps with
      | nil => intro b; simp
      | cons q ps ih => intro b; rw [List.foldl_cons, ih, List.map_cons, List.sum_cons]; ring
    rw [List.foldl_cons, ih, List.flatMap_cons, List.sum_append]
    have h2 : ((globalPoints e.2.2).map (·.weight)).sum = Mapping.detJ e.2.2.bounds * Embedded.weightSum e.2.2.points := by
      unfold Embedded.weightSum globalPoints
      rw [hw, List.map_map]
      simp [Function.comp_def]
    rw [h2]
    cases e.1 <;> ring

theorem append_all : ∀ (ms : List (Mesh ℚ)) (m : Mesh ℚ) (ts : List (Tri ℚ)) (tss : List (List (Tri ℚ))), m.check = true → m.visit = some ts →
    List.Forall₂ (fun (m : Mesh ℚ) ts => m.check = true ∧ m.visit = some ts) ms tss →
    ∃ m' : Mesh ℚ, m'.check = true ∧ m'.visit = some (ts ++ tss.flatten)
  | [], m, ts, _, h1, h2, .nil => ⟨m, h1, by simpa using h2⟩
  | _ :: ms, m, ts, _, h1, h2, .cons hc hr => by
    obtain ⟨m1, -, k2, k3, -⟩ := MeshUtil.C35_append h1 hc.1 h2 hc.2
    obtain ⟨m', j2, j3⟩ := append_all ms m1 _ _ k2 k3 hr
    exact ⟨m', j2, by simpa using j3⟩

theorem visits {ms : List (Mesh K)} (h : ∀ m ∈ ms, m.check = true) :
    ∃ tss, List.Forall₂ (fun (m : Mesh K) ts => m.check = true ∧ m.visit = some ts) ms tss := by
  induction ms with
  | nil => exact ⟨[], .nil⟩
  | cons m ms ih =>
    obtain ⟨ts, ht⟩ := check_visit (h m (by simp))
    obtain ⟨tss, hs⟩ := ih fun m hm => h m (by simp [hm])
    exact ⟨ts :: tss, .cons ⟨h m (by simp), ht⟩ hs⟩

theorem writeConditions_spec (host : Endian) (toF : ℚ → UInt32) (dir : List UInt8) : ∀ (cs : List (Nat × List (Mesh ℚ))) (fs : Files),
    (cs.map (·.1)).Nodup → (∀ c ∈ cs, (writeConditionSTL host toF c.2).isSome = true) →
    ∃ fs', writeConditions host toF dir cs fs = some fs' ∧
      (∀ c ∈ cs, fs'.get (conditionFile dir c.1) = writeConditionSTL host toF c.2) ∧
      ∀ name, (∀ c ∈ cs, name ≠ conditionFile dir c.1) → fs'.get name = fs.get name
  | [], fs, _, _ => ⟨fs, rfl, by simp, fun _ _ => rfl⟩
  | c :: cs, fs, hd, hs => by
    obtain ⟨b, hb⟩ := Option.isSome_iff_exists.1 (hs c (by simp))
    rw [List.map_cons, List.nodup_cons] at hd
    obtain ⟨fs', h1, h2, h3⟩ := writeConditions_spec host toF dir cs (fs.put (conditionFile dir c.1) b) hd.2 fun c hc => hs c (by simp [hc])
    refine ⟨fs', by simp only [writeConditions, hb, Option.bind_some, h1], ?_, ?_⟩
    · intro c' hc'
      rcases List.mem_cons.1 hc' with rfl | hc'
      · rw [h3 _ fun d hdm he => hd.1 (by rw [conditionFile_inj dir he]; exact List.mem_map_of_mem hdm), get_put_self, hb]
      · exact h2 c' hc'
    · intro name hn
      rw [h3 name fun d hdm => hn d (by simp [hdm]), get_put_other _ (hn c (by simp))]

theorem flatMap_flatten' {α β : Type*} (f : α → List β) (tss : List (List α)) :
    (tss.flatMap fun t => t.flatMap f) = tss.flatten.flatMap f := by
  induction tss with
  | nil => rfl
  | cons t tss ih => rw [List.flatMap_cons, ih, List.flatten_cons, List.flatMap_append]

theorem writeConditionSTL_eq (host : Endian) (toF : K → UInt32) {ms : List (Mesh K)} {tss : List (List (Tri K))}
    (h : List.Forall₂ (fun (m : Mesh K) ts => m.visit = some ts) ms tss) {M : Mesh K} (hM : M.visit = some tss.flatten) :
    writeConditionSTL host toF ms = writeSTL host toF M := by
  unfold writeConditionSTL writeSTL
  rw [mapM_visit h, hM, Option.bind_some, Option.bind_some, accumulate32, sum_triangles h, (visit_spec hM).1, flatMap_flatten',
    UInt32.zero_add]

theorem writeConditionAscii_eq (fmt : K → List UInt8) {ms : List (Mesh K)} {tss : List (List (Tri K))}
    (h : List.Forall₂ (fun (m : Mesh K) ts => m.visit = some ts) ms tss) {M : Mesh K} (hM : M.visit = some tss.flatten) :
    writeConditionAscii fmt ms = writeAscii fmt M := by
  unfold writeConditionAscii writeAscii
  rw [mapM_visit h, hM, Option.map_some, Option.map_some, flatMap_flatten']

end QuESo.IO
