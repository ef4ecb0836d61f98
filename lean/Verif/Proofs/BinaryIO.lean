import Verif.Spec.IO
import Mathlib.Tactic.Linarith
import Mathlib.Tactic.Ring
import Mathlib.Data.List.Basic

/-! # Proofs about the buffered writer, byte order and STL files -/
namespace QuESo.IO
open QuESo.Spec

/-! ## Byte order -/

theorem leBytes_length (w v : Nat) : (leBytes w v).length = w := by
  induction w generalizing v with
  | zero => rfl
  | succ w ih => simp [leBytes, ih]

theorem memory_length (h : Endian) (w v : Nat) : (memory h w v).length = w := by
  cases h <;> simp [memory, leBytes_length]

theorem leBytes_eq (w v : Nat) : leBytes w v = (List.range w).map (fun k => UInt8.ofNat (v / 256 ^ k % 256)) := by
  induction w generalizing v with
  | zero => rfl
  | succ w ih =>
    rw [leBytes, ih, List.range_succ_eq_map, List.map_cons, List.map_map]
    congr 1
    · simp
    · refine List.map_congr_left fun k _ => ?_
      simp only [Function.comp, Nat.succ_eq_add_one]
      rw [Nat.div_div_eq_div_mul, Nat.pow_succ, Nat.mul_comm]

theorem leBytes_reverse (w v : Nat) :
    (leBytes w v).reverse = (List.range w).map (fun k => UInt8.ofNat (v / 256 ^ (w - 1 - k) % 256)) := by
  rw [leBytes_eq]
  apply List.ext_getElem
  · simp
  · intro i h1 h2
    simp

theorem swapAt_length (b : List UInt8) (i j : Nat) : (swapAt b i j).length = b.length := by
  unfold swapAt
  split <;> simp

theorem swapAt_get (b : List UInt8) {i j : Nat} (hi : i < b.length) (hj : j < b.length) (k : Nat) :
    (swapAt b i j)[k]? = if k = j then b[i]? else if k = i then b[j]? else b[k]? := by
  unfold swapAt
  rw [List.getElem?_eq_getElem hi, List.getElem?_eq_getElem hj]
  simp only [List.getElem?_set, List.length_set]
  by_cases h1 : j = k
  · subst h1; simp [hj]
  · rw [if_neg h1, if_neg (Ne.symm h1)]
    by_cases h2 : i = k
    · subst h2; simp [hi]
    · rw [if_neg h2, if_neg (Ne.symm h2)]

theorem swapEnd_eq (b : List UInt8) : swapEnd b = b.reverse := by
  have key : ∀ k, k ≤ b.length / 2 →
      ((List.range k).foldl (fun c i => swapAt c i (b.length - 1 - i)) b).length = b.length ∧
      ∀ j, j < b.length → ((List.range k).foldl (fun c i => swapAt c i (b.length - 1 - i)) b)[j]? =
        if j < k ∨ b.length - k ≤ j then b[b.length - 1 - j]? else b[j]? := by
    intro k
    induction k with
    | zero =>
      intro _
      refine ⟨rfl, fun j hj => ?_⟩
      rw [if_neg (by omega)]
      rfl
    | succ k ih =>
      intro hk
      obtain ⟨h1, h2⟩ := ih (by omega)
      rw [List.range_succ, List.foldl_append]
      simp only [List.foldl_cons, List.foldl_nil]
      refine ⟨by rw [swapAt_length, h1], fun j hj => ?_⟩
      rw [swapAt_get _ (by omega) (by omega), h2 k (by omega), h2 _ (by omega : b.length - 1 - k < b.length), h2 j hj]
      by_cases e1 : j = b.length - 1 - k
      · rw [if_pos e1, if_neg (by omega), if_pos (by omega)]
        congr 1; omega
      · rw [if_neg e1]
        by_cases e2 : j = k
        · rw [if_pos e2, if_neg (by omega), if_pos (by omega), e2]
        · rw [if_neg e2]
          by_cases e3 : j < k ∨ b.length - k ≤ j
          · rw [if_pos e3, if_pos (by omega)]
          · rw [if_neg e3, if_neg (by omega)]
  obtain ⟨h1, h2⟩ := key (b.length / 2) le_rfl
  unfold swapEnd
  apply List.ext_getElem?
  intro j
  by_cases hj : j < b.length
  · rw [h2 j hj, List.getElem?_reverse hj]
    by_cases e : j < b.length / 2 ∨ b.length - b.length / 2 ≤ j
    · rw [if_pos e]
    · rw [if_neg e]
      congr 1; omega
  · rw [List.getElem?_eq_none (by rw [h1]; omega), List.getElem?_eq_none (by rw [List.length_reverse]; omega)]

theorem valueBytes_eq (host target : Endian) (w v : Nat) : valueBytes host target w v = encode target w v := by
  unfold valueBytes
  cases host <;> cases target <;> simp only [memory, swapEnd_eq, encode, ne_eq, reduceCtorEq, not_true_eq_false, not_false_eq_true,
    if_true, if_false, List.reverse_reverse] <;> first | exact leBytes_eq w v | exact leBytes_reverse w v

theorem encode_little (w v : Nat) : encode .little w v = leBytes w v := (leBytes_eq w v).symm

theorem ofLeBytes_leBytes (w v : Nat) : ofLeBytes (leBytes w v) = v % 256 ^ w := by
  induction w generalizing v with
  | zero => simp [leBytes, ofLeBytes, Nat.mod_one]
  | succ w ih =>
    have h8 : (UInt8.ofNat (v % 256)).toNat = v % 256 := by
      rw [UInt8.toNat_ofNat']
      omega
    have hp : 256 ^ (w + 1) = 256 * 256 ^ w := Nat.pow_succ'
    rw [leBytes, ofLeBytes, ih, h8, hp, Nat.mod_mul]

/-! ## Writer -/

/-- Everything written so far. -/
def Writer.content (w : Writer) : List UInt8 := w.out ++ w.mem.take w.pos

/-- Representation invariant. -/
def Writer.Ok (cap : Nat) (w : Writer) : Prop := w.mem.length = cap ∧ w.pos ≤ cap

theorem flush_spec {cap : Nat} {w : Writer} (h : w.Ok cap) :
    ∃ w', w.flush = some w' ∧ w'.Ok cap ∧ w'.pos = 0 ∧ w'.out = w.content ∧ w'.endian = w.endian := by
  obtain ⟨h1, h2⟩ := h
  unfold Writer.flush
  by_cases hp : w.pos > 0
  · rw [if_pos hp, if_pos (by omega)]
    exact ⟨_, rfl, ⟨h1, Nat.zero_le _⟩, rfl, rfl, rfl⟩
  · rw [if_neg hp]
    have : w.pos = 0 := by omega
    exact ⟨w, rfl, ⟨h1, h2⟩, this, by simp [Writer.content, this], rfl⟩

theorem copy_spec {cap : Nat} {w : Writer} (h : w.Ok cap) (data : List UInt8) (hd : w.pos + data.length ≤ cap) :
    ∃ w', w.copy data = some w' ∧ w'.Ok cap ∧ w'.content = w.content ++ data ∧ w'.endian = w.endian ∧ w'.out = w.out := by
  obtain ⟨h1, h2⟩ := h
  unfold Writer.copy memcpy
  rw [if_pos (by omega)]
  refine ⟨_, rfl, ⟨?_, hd⟩, ?_, rfl, rfl⟩
  · simp; omega
  · simp only [Writer.content, List.append_assoc]
    congr 1
    have hl : (w.mem.take w.pos).length = w.pos := by simp; omega
    rw [List.take_append, hl, List.take_of_length_le (by omega), show w.pos + data.length - w.pos = data.length by omega,
      List.take_append, List.take_of_length_le le_rfl, Nat.sub_self, List.take_zero, List.append_nil]

theorem append_spec {cap : Nat} {w : Writer} (h : w.Ok cap) (data : List UInt8) :
    ∃ w', w.append data = some w' ∧ w'.Ok cap ∧ w'.content = w.content ++ data ∧ w'.endian = w.endian ∧
      ∃ e, w'.out = w.out ++ e := by
  unfold Writer.append
  have hout : ∃ e, w.content = w.out ++ e := ⟨_, rfl⟩
  obtain ⟨w1, f1, f2, f3, f4, f5⟩ := flush_spec h
  by_cases h1 : data.length > w.mem.length
  · rw [if_pos h1, f1]
    refine ⟨_, rfl, f2, ?_, f5, ?_⟩
    · simp [Writer.content, f3, f4]
    · obtain ⟨e, he⟩ := hout
      exact ⟨e ++ data, by simp [f4, he]⟩
  · rw [if_neg h1]
    by_cases h2 : w.pos + data.length > w.mem.length
    · rw [if_pos h2, f1]
      simp only [Option.bind_some]
      obtain ⟨w2, c1, c2, c3, c4, c5⟩ := copy_spec f2 data (by rw [f3]; have := h.1; omega)
      refine ⟨w2, c1, c2, ?_, c4.trans f5, ?_⟩
      · rw [c3]; simp [Writer.content, f3, f4]
      · obtain ⟨e, he⟩ := hout
        exact ⟨e, by rw [c5, f4, he]⟩
    · rw [if_neg h2]
      obtain ⟨w2, c1, c2, c3, c4, c5⟩ := copy_spec h data (by have := h.1; omega)
      exact ⟨w2, c1, c2, c3, c4, [], by simp [c5]⟩

theorem array_spec {cap : Nat} (host : Endian) (width : Nat) (vs : List Nat) {w : Writer} (h : w.Ok cap) :
    ∃ w', w.array host width vs = some w' ∧ w'.Ok cap ∧ w'.content = w.content ++ vs.flatMap (encode w.endian width) ∧
      w'.endian = w.endian ∧ ∃ e, w'.out = w.out ++ e := by
  induction vs generalizing w with
  | nil => exact ⟨w, rfl, h, by simp, rfl, [], by simp⟩
  | cons v vs ih =>
    obtain ⟨w1, a1, a2, a3, a4, e1, a5⟩ := append_spec h (valueBytes host w.endian width v)
    obtain ⟨w2, b1, b2, b3, b4, e2, b5⟩ := ih a2
    refine ⟨w2, ?_, b2, ?_, b4.trans a4, e1 ++ e2, by rw [b5, a5, List.append_assoc]⟩
    · simp only [Writer.array, Writer.value, a1, Option.bind_some]; exact b1
    · rw [b3, a3, a4, valueBytes_eq]; simp

theorem step_spec {cap : Nat} (host : Endian) {w : Writer} (h : w.Ok cap) (o : WriteOp) :
    ∃ w', w.step host o = some w' ∧ w'.Ok cap ∧ w'.content = w.content ++ opBytes w.endian o ∧ w'.endian = w.endian ∧
      ∃ e, w'.out = w.out ++ e := by
  cases o with
  | raw data => exact append_spec h data
  | value width v =>
    have := append_spec h (valueBytes host w.endian width v)
    rw [valueBytes_eq] at this
    simpa only [Writer.step, Writer.value, valueBytes_eq, opBytes] using this
  | array width vs => exact array_spec host width vs h
  | flush =>
    obtain ⟨w1, f1, f2, f3, f4, f5⟩ := flush_spec h
    exact ⟨w1, f1, f2, by simp [Writer.content, f3, f4, opBytes], f5, w.mem.take w.pos, f4⟩

theorem run_spec {cap : Nat} (host : Endian) (ops : List WriteOp) {w : Writer} (h : w.Ok cap) :
    ∃ w', w.run host ops = some w' ∧ w'.Ok cap ∧ w'.content = w.content ++ ops.flatMap (opBytes w.endian) ∧
      w'.endian = w.endian ∧ ∃ e, w'.out = w.out ++ e := by
  induction ops generalizing w with
  | nil => exact ⟨w, rfl, h, by simp, rfl, [], by simp⟩
  | cons o ops ih =>
    obtain ⟨w1, a1, a2, a3, a4, e1, a5⟩ := step_spec host h o
    obtain ⟨w2, b1, b2, b3, b4, e2, b5⟩ := ih a2
    refine ⟨w2, ?_, b2, ?_, b4.trans a4, e1 ++ e2, by rw [b5, a5, List.append_assoc]⟩
    · simp only [Writer.run, a1, Option.bind_some]; exact b1
    · rw [b3, a3, a4]; simp

theorem new_ok (out : List UInt8) (e : Endian) (cap : Nat) : (Writer.new out e cap).Ok cap := by
  simp [Writer.Ok, Writer.new]

theorem session_eq (host e : Endian) (cap : Nat) (file : List UInt8) (ops : List WriteOp) :
    session host e cap file ops = some (file ++ ops.flatMap (opBytes e)) := by
  obtain ⟨w, r1, r2, r3, _, _⟩ := run_spec host ops (new_ok file e cap)
  obtain ⟨w2, f1, _, _, f4, _⟩ := flush_spec r2
  unfold session
  rw [r1]
  simp only [Option.bind_some, f1, Option.map_some, f4, r3]
  simp [Writer.content, Writer.new]

end QuESo.IO
