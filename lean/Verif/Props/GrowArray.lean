import Verif.Model.GrowArray
/-
C11-C13: growable arrays.
-/
namespace Boof
variable {V : Type}
open GrowArray

/-- The elements an array holds, in order. -/
def GrowArray.elems (a : GrowArray V) : List V := a.data.take a.size

/-- The array really has `size` elements. -/
def GrowArray.Ok (a : GrowArray V) : Prop := a.size ≤ a.data.length

theorem GrowArray.Ok.length {a : GrowArray V} (h : a.Ok) : a.elems.length = a.size := by
  simp only [GrowArray.elems, List.length_take]; unfold GrowArray.Ok at h; omega

/-! ## Checked access (part of C13) -/

/-- `at(i)` throws exactly when `i >= size` and otherwise returns element `i`. -/
theorem C13_at {a : GrowArray V} (h : a.Ok) (i : Nat) :
    (i ≥ a.size → a.at' i = .throw a) ∧
    (∀ v, a.elems[i]? = some v → a.at' i = .ok v a) ∧ (i < a.size → ∃ v, a.elems[i]? = some v) := by
  unfold GrowArray.at' GrowArray.elems GrowArray.Ok at *
  refine ⟨fun hi => if_pos hi, ?_, ?_⟩
  · intro v e
    rw [List.getElem?_take] at e
    split at e
    · rw [if_neg (by omega), e]
    · cases e
  · intro hi
    refine ⟨a.data[i], ?_⟩
    rw [List.getElem?_take, if_pos hi, List.getElem?_eq_getElem]

/-- Writing through `at(i)` changes element `i` only; out of range it throws and changes nothing. -/
theorem C13_set_at {a : GrowArray V} (h : a.Ok) (i : Nat) (v : V) :
    (i ≥ a.size → a.setAt i v = .throw a) ∧
    (i < a.size → ∃ a', a.setAt i v = .ok () a' ∧ a'.Ok ∧ a'.elems = a.elems.set i v ∧ a'.at' i = .ok v a') := by
  unfold GrowArray.setAt
  refine ⟨fun hi => if_pos hi, fun hi => ?_⟩
  unfold GrowArray.Ok at h
  rw [if_neg (by omega), if_pos (by omega)]
  refine ⟨_, rfl, by simp only [GrowArray.Ok, List.length_set]; exact h, ?_, ?_⟩
  · simp only [GrowArray.elems, List.take_set]
  · unfold GrowArray.at'
    simp only []
    rw [if_neg (by omega), List.getElem?_set_self (by omega)]

/-! ## C11 -/

/-- What `resize` does in every case.  MISSING for the full property: elements between the old size and `n` are
the default value only if the array had to be enlarged (`C11_stale_refuted`), and then only if all bytes of the
default value are equal (`C11_default_refuted`). -/
theorem C11_resize_partial (E : Elem V) {a : GrowArray V} (h : a.Ok) (hr : a.canResize = true) (n : Nat) :
    ∃ a', a.resize E n = .ok () a' ∧ a'.Ok ∧ a'.size = n ∧ a'.default = a.default ∧ a'.canResize = true ∧
      a.arrayLength ≤ a'.arrayLength ∧
      (∀ i, i < a.size → i < n → a'.elems[i]? = a.elems[i]?) ∧
      (a.arrayLength < n → E.ms a.default = a.default →
        ∀ i, a.size ≤ i → i < n → a'.elems[i]? = some a.default) ∧
      (n ≤ a.arrayLength → a'.data = a.data) := by
  unfold GrowArray.resize GrowArray.Ok GrowArray.arrayLength at *
  rw [if_neg (by simp [hr])]
  by_cases hn : n > a.data.length
  · rw [if_pos hn, if_pos h]
    refine ⟨_, rfl, ?_, rfl, rfl, hr, ?_, ?_, ?_, ?_⟩
    · simp only [List.length_append, List.length_take, List.length_replicate]; omega
    · simp only [List.length_append, List.length_take, List.length_replicate]; omega
    · intro i h1 h2
      simp only [GrowArray.elems]
      rw [List.getElem?_take, if_pos h2, List.getElem?_append_left (by rw [List.length_take]; omega)]
    · intro _ hms i h1 h2
      simp only [GrowArray.elems]
      rw [List.getElem?_take, if_pos h2, List.getElem?_append_right (by rw [List.length_take]; omega),
        List.getElem?_replicate, List.length_take, if_pos (by omega), hms]
    · intro hc; omega
  · rw [if_neg hn]
    refine ⟨_, rfl, by simp only []; omega, rfl, rfl, hr, Nat.le_refl _, ?_, fun hc => by omega, fun _ => rfl⟩
    intro i h1 h2
    simp only [GrowArray.elems]
    rw [List.getElem?_take, List.getElem?_take, if_pos h1, if_pos h2]

/-- The whole property holds for a sequence of growing resizes of an array that is full (its size is its
capacity), e.g. one just constructed: every new element is the default value. -/
theorem C11_full_array (E : Elem V) {a : GrowArray V} (h : a.size = a.arrayLength) (hr : a.canResize = true)
    (hms : E.ms a.default = a.default) (n : Nat) (hn : a.size ≤ n) :
    ∃ a', a.resize E n = .ok () a' ∧ a'.size = a'.arrayLength ∧ a'.canResize = true ∧ a'.default = a.default ∧
      a'.elems = a.elems ++ List.replicate (n - a.size) a.default := by
  unfold GrowArray.arrayLength at *
  unfold GrowArray.resize GrowArray.arrayLength
  rw [if_neg (by simp [hr])]
  by_cases hgt : n > a.data.length
  · rw [if_pos hgt, if_pos (by omega)]
    refine ⟨_, rfl, ?_, hr, rfl, ?_⟩
    · simp only [List.length_append, List.length_take, List.length_replicate]; omega
    · simp only [GrowArray.elems, hms]
      rw [List.take_of_length_le]
      simp only [List.length_append, List.length_take, List.length_replicate]; omega
  · have : n = a.size := by omega
    subst this
    rw [if_neg hgt]
    exact ⟨_, rfl, h, hr, rfl, by simp [GrowArray.elems]⟩

/-- A wrapper of foreign memory refuses. -/
theorem C11_resize_throws (E : Elem V) {a : GrowArray V} (hr : a.canResize = false) (n : Nat) :
    a.resize E n = .throw a := by unfold GrowArray.resize; rw [if_pos hr]

/-- Value written by a `memset`-based fill with 0 is 0 for every integer type, so default-constructed arrays
(default value 0) meet the hypothesis `E.ms a.default = a.default`. -/
theorem memsetInt_zero (t : IntTy) : memsetInt t 0 = 0 := by
  unfold memsetInt
  have : ((List.range (t.bits / 8)).map (fun i => ((0:Int) % 256) * (256 ^ i : Nat))).sum = 0 := by
    generalize List.range (t.bits / 8) = l
    induction l with
    | nil => rfl
    | cons a l ih => simp only [List.map_cons, List.sum_cons, ih]; simp
  rw [this]
  unfold IntTy.cast
  rw [Int.zero_emod]
  refine if_neg ?_
  rintro ⟨-, h2⟩
  have : 0 < 2 ^ (t.bits - 1) := Nat.pow_pos (by decide)
  omega

/-- The claim is false when the array shrank before: `[0,0,0]`, write 5 at index 2, `resize(1)`, `resize(3)`
shows the old 5 although the default value is 0 (any element type). -/
theorem C11_stale_refuted (junk : Nat → Int) :
    ∃ a b, GrowArray.resize (intElem S32 junk) 1 (⟨[0, 0, 5], 3, 0, true⟩ : GrowArray Int) = .ok () a ∧
      a.resize (intElem S32 junk) 3 = .ok () b ∧ b.elems = [0, 0, 5] := ⟨_, _, rfl, rfl, rfl⟩

/-- The claim is false for a default value whose bytes differ: with default 1 and 32-bit elements the new element
is 16843009 = 0x01010101. -/
theorem C11_default_refuted (junk : Nat → Int) :
    ∃ b, GrowArray.resize (intElem S32 junk) 2 (⟨[7], 1, 1, true⟩ : GrowArray Int) = .ok () b ∧
      b.elems = [7, 16843009] := ⟨_, rfl, rfl⟩

/-- Enlarging the array with `grow_array(n)` and resizing within the new array shows the default value only in the elements all of whose bytes are
among the first `n` bytes of the array, because `n` is taken for a number of bytes; the others are indeterminate.  An array of 4-byte elements which
starts with zeros in its first quarter only is the result. -/
theorem C11_grow_array {t : IntTy} (ht : 8 ≤ t.bits) (junk : Nat → Int) {a : GrowArray Int} (hr : a.canResize = true) {n m : Nat}
    (hn : a.arrayLength < n) (hm : m ≤ n) :
    ∃ a1 a2, a.growArray (intElem t junk) n = .ok () a1 ∧ a1.size = 0 ∧ a1.resize (intElem t junk) m = .ok () a2 ∧ a2.size = m ∧
      ∀ i, i < m → a2.elems[i]? = some (if (i + 1) * (t.bits / 8) ≤ n then memsetInt t a.default else junk i) := by
  unfold GrowArray.growArray
  rw [if_neg (by simp [hr]), if_pos hn]
  refine ⟨_, { a with data := (List.range n).map (fun i => if i < n / (t.bits / 8) then memsetInt t a.default else junk i), size := m },
    rfl, rfl, ?_, rfl, ?_⟩
  · unfold GrowArray.resize GrowArray.arrayLength
    rw [if_neg (by simp [hr]), if_neg (by simp only [List.length_map, List.length_range]; omega)]
    rfl
  · intro i hi
    simp only [GrowArray.elems]
    rw [List.getElem?_take, if_pos hi, List.getElem?_map, List.getElem?_range (by omega)]
    simp only [Option.map_some]
    have : i < n / (t.bits / 8) ↔ (i + 1) * (t.bits / 8) ≤ n := Nat.le_div_iff_mul_le (by omega)
    by_cases h : i < n / (t.bits / 8)
    · rw [if_pos h, if_pos (this.mp h)]
    · rw [if_neg h, if_neg (fun g => h (this.mpr g))]

example : ∃ a1 a2, (⟨[], 0, 0, true⟩ : GrowArray Int).growArray (intElem U32 (fun _ => 99)) 8 = .ok () a1 ∧
    a1.resize (intElem U32 (fun _ => 99)) 5 = .ok () a2 ∧ a2.elems = [0, 0, 99, 99, 99] := ⟨_, _, rfl, rfl, rfl⟩

/-! ## C12 -/

/-- `fill(v)` sets every element when `v` survives the byte-wise `memset`; otherwise every element becomes the
repeated low byte.  Nothing else changes.  MISSING for the full property: values whose bytes differ, for which it
is false (`C12_fill_refuted`). -/
theorem C12_fill_partial (E : Elem V) {a : GrowArray V} (h : a.Ok) (v : V) :
    ∃ a', a.fill E v = .ok () a' ∧ a'.Ok ∧ a'.size = a.size ∧ a'.default = a.default ∧
      a'.canResize = a.canResize ∧ a'.arrayLength = a.arrayLength ∧
      a'.elems = List.replicate a.size (E.ms v) ∧ a'.data.drop a.size = a.data.drop a.size := by
  unfold GrowArray.fill GrowArray.Ok GrowArray.arrayLength at *
  rw [if_pos h]
  refine ⟨_, rfl, ?_, rfl, rfl, rfl, ?_, ?_, ?_⟩
  · simp only [List.length_append, List.length_replicate, List.length_drop]; omega
  · simp only [List.length_append, List.length_replicate, List.length_drop]; omega
  · simp only [GrowArray.elems]
    rw [List.take_append_of_le_length (by simp)]
    simp
  · simp

theorem memsetInt_byte (v : Int) (h : U8.InRange v) : memsetInt U8 v = v := by
  have : memsetInt U8 v = U8.cast (v % 256) := by
    show U8.cast (v % 256 * 1 + 0) = _
    congr 1; omega
  rw [this]
  unfold IntTy.InRange IntTy.lo IntTy.hi U8 at h
  simp only [Bool.false_eq_true, if_false] at h
  unfold IntTy.cast U8
  simp only [Bool.false_eq_true, false_and, if_false]
  omega

/-- For 8-bit elements the whole property holds. -/
theorem C12_fill_u8 (junk : Nat → Int) {a : GrowArray Int} (h : a.Ok) {v : Int} (hv : U8.InRange v) :
    ∃ a', a.fill (intElem U8 junk) v = .ok () a' ∧ a'.elems = List.replicate a.size v ∧
      a'.data.drop a.size = a.data.drop a.size := by
  obtain ⟨a', e, -, -, -, -, -, e2, e3⟩ := C12_fill_partial (intElem U8 junk) h v
  refine ⟨a', e, ?_, e3⟩
  rw [e2]; congr 1; exact memsetInt_byte v hv

/-- For every integer type `fill(0)` zeroes every element. -/
theorem C12_fill_zero (t : IntTy) (junk : Nat → Int) {a : GrowArray Int} (h : a.Ok) :
    ∃ a', a.fill (intElem t junk) 0 = .ok () a' ∧ a'.elems = List.replicate a.size 0 := by
  obtain ⟨a', e, -, -, -, -, -, e2, -⟩ := C12_fill_partial (intElem t junk) h 0
  refine ⟨a', e, ?_⟩
  rw [e2]; congr 1; exact memsetInt_zero t

/-- For wider elements it is false: `fill(1)` on a 32-bit array of two elements gives 16843009 twice. -/
theorem C12_fill_refuted (junk : Nat → Int) :
    ∃ a, GrowArray.fill (intElem S32 junk) 1 (⟨[0, 0], 2, 0, true⟩ : GrowArray Int) = .ok () a ∧
      a.elems = [16843009, 16843009] := ⟨_, rfl, rfl⟩

/-- `fill(v)` on a 32-bit unsigned array works exactly for the 256 values with four equal bytes. -/
theorem C12_fill_u32_iff (v : Int) (hv : U32.InRange v) :
    memsetInt U32 v = v ↔ ∃ b, 0 ≤ b ∧ b < 256 ∧ v = b * 16843009 := by
  have e : memsetInt U32 v = (v % 256) * 16843009 := by
    have : memsetInt U32 v = U32.cast (v % 256 * 1 + (v % 256 * 256 + (v % 256 * 65536 + (v % 256 * 16777216 + 0)))) := rfl
    rw [this]
    unfold IntTy.cast U32
    simp only [Bool.false_eq_true, false_and, if_false]
    omega
  unfold IntTy.InRange IntTy.lo IntTy.hi U32 at hv
  simp only [Bool.false_eq_true, if_false] at hv
  rw [e]
  constructor
  · intro h; exact ⟨v % 256, by omega, by omega, h.symm⟩
  · rintro ⟨b, h1, h2, rfl⟩; omega

/-! ## C13 -/

theorem growArray_ok (E : Elem V) {a : GrowArray V} (hr : a.canResize = true) (n : Nat) :
    ∃ a', a.growArray E n = .ok () a' ∧ n ≤ a'.data.length ∧ a.data.length ≤ a'.data.length ∧ a'.size = 0 ∧
      a'.default = a.default ∧ a'.canResize = true := by
  unfold GrowArray.growArray GrowArray.arrayLength
  rw [if_neg (by simp [hr])]
  by_cases hn : n > a.data.length
  · rw [if_pos hn]
    exact ⟨_, rfl, by simp, by simp; omega, rfl, rfl, hr⟩
  · rw [if_neg hn]
    exact ⟨_, rfl, by simp only []; omega, Nat.le_refl _, rfl, rfl, hr⟩

/-- Assignment copies size, elements and default value; the target's capacity does not shrink. -/
theorem C13_assign (E : Elem V) {a b : GrowArray V} (hb : b.Ok) (hr : a.canResize = true) :
    ∃ a', a.assign E b = .ok () a' ∧ a'.Ok ∧ a'.elems = b.elems ∧ a'.size = b.size ∧ a'.default = b.default ∧
      a'.canResize = true ∧ a.arrayLength ≤ a'.arrayLength := by
  obtain ⟨a1, e1, h1, h2, h3, h4, h5⟩ := growArray_ok E (a := { a with default := b.default }) hr b.size
  unfold GrowArray.assign GrowArray.Ok GrowArray.arrayLength at *
  rw [e1]
  simp only [GrowArray.blit]
  rw [if_pos hb, if_pos (by rw [List.length_take]; omega)]
  refine ⟨_, rfl, ?_, ?_, rfl, h4, h5, ?_⟩
  · simp only [List.length_append, List.length_take, List.length_drop]; omega
  · simp only [GrowArray.elems]
    rw [List.take_append_of_le_length (by rw [List.length_take]; omega)]
    rw [List.take_take, Nat.min_self]
  · simp only [List.length_append, List.length_take, List.length_drop] at *; omega

/-- `setTo({...})` gives exactly the listed elements. -/
theorem C13_setTo (E : Elem V) {a : GrowArray V} (h : a.Ok) (hr : a.canResize = true) (l : List V) :
    ∃ a', a.setTo E l = .ok () a' ∧ a'.Ok ∧ a'.elems = l ∧ a'.size = l.length ∧ a.arrayLength ≤ a'.arrayLength ∧
      a'.canResize = true := by
  obtain ⟨a1, e1, h1, h2, h3, h4, h5, -⟩ := C11_resize_partial E h hr l.length
  unfold GrowArray.setTo GrowArray.Ok GrowArray.arrayLength at *
  rw [e1]
  simp only [GrowArray.blit]
  rw [if_pos (by omega)]
  refine ⟨_, rfl, ?_, ?_, h2, ?_, h4⟩
  · simp only [List.length_append, List.length_drop]; omega
  · simp only [GrowArray.elems]
    rw [h2, List.take_append_of_le_length (Nat.le_refl _), List.take_of_length_le (Nat.le_refl _)]
  · simp only [List.length_append, List.length_drop]; omega

/-- `set(ptr,n)` gives exactly the first `n` elements at `ptr`. -/
theorem C13_set (E : Elem V) {a : GrowArray V} (hr : a.canResize = true) (src : List V) (n : Nat)
    (hn : n ≤ src.length) :
    ∃ a', a.set E src n = .ok () a' ∧ a'.Ok ∧ a'.elems = src.take n ∧ a'.size = n ∧
      a.arrayLength ≤ a'.arrayLength ∧ a'.canResize = true := by
  obtain ⟨a1, e1, h1, h2, h3, h4, h5⟩ := growArray_ok E hr n
  unfold GrowArray.set GrowArray.Ok GrowArray.arrayLength at *
  rw [e1]
  simp only [GrowArray.blit]
  rw [if_pos hn, if_pos (by rw [List.length_take]; omega)]
  refine ⟨_, rfl, ?_, ?_, rfl, ?_, h5⟩
  · simp only [List.length_append, List.length_take, List.length_drop]; omega
  · simp only [GrowArray.elems]
    rw [List.take_append_of_le_length (by rw [List.length_take]; omega), List.take_of_length_le (by rw [List.length_take]; omega)]
  · simp only [List.length_append, List.length_take, List.length_drop]; omega

/-- The constructors: `GrowArray(n)` holds `n` zeros (integer types), `GrowArray({...})` the listed elements, and
both can be resized. -/
theorem C13_construct (t : IntTy) (junk : Nat → Int) (n : Nat) (l : List Int) :
    (∃ a, GrowArray.new (intElem t junk) n = .ok () a ∧ a.Ok ∧ a.elems = List.replicate n 0 ∧
      a.canResize = true ∧ a.arrayLength = n ∧ a.default = 0) ∧
    (GrowArray.ofList (intElem t junk) l).elems = l ∧ (GrowArray.ofList (intElem t junk) l).Ok ∧
      (GrowArray.ofList (intElem t junk) l).canResize = true := by
  refine ⟨?_, ?_, ?_, rfl⟩
  · obtain ⟨a', e, h1, h2, h3, h4, h5, h6, -⟩ := C12_fill_partial (intElem t junk)
      (a := ⟨(List.range n).map junk, n, 0, true⟩) (by simp [GrowArray.Ok]) 0
    refine ⟨a', e, h1, ?_, h4, ?_, h3⟩
    · rw [h6]; congr 1; exact memsetInt_zero t
    · rw [h5]; simp [GrowArray.arrayLength]
  · simp [GrowArray.ofList, GrowArray.elems]
  · simp [GrowArray.ofList, GrowArray.Ok]

/-- `GrowArray()` holds ten zeros. -/
theorem C13_construct_default (t : IntTy) (junk : Nat → Int) :
    ∃ a, GrowArray.newDefault (intElem t junk) = .ok () a ∧ a.Ok ∧ a.elems = List.replicate 10 0 ∧ a.canResize = true ∧
      a.arrayLength = 10 ∧ a.default = 0 :=
  (C13_construct t junk 10 []).1

/-- A wrapper shows the first `n` elements of the memory it is given, and writes go to that memory. -/
theorem C13_wrap (E : Elem V) (l : List V) {n : Nat} (hn : n ≤ l.length) :
    (GrowArray.wrap E l n).Ok ∧ (GrowArray.wrap E l n).elems = l.take n ∧ (GrowArray.wrap E l n).canResize = false ∧
      ∀ i v, i < n → ∃ a, (GrowArray.wrap E l n).setAt i v = .ok () a ∧ a.data = l.set i v ∧ a.size = n ∧ a.canResize = false := by
  refine ⟨hn, rfl, rfl, fun i v hi => ⟨⟨l.set i v, n, E.zero, false⟩, ?_, rfl, rfl, rfl⟩⟩
  unfold GrowArray.setAt GrowArray.wrap
  simp only []
  rw [if_neg (by omega), if_pos (by omega)]

/-- `operator[]` agrees with `at` wherever that returns, is not checked against the size, and is undefined exactly beyond the
capacity. -/
theorem C13_index {a : GrowArray V} (h : a.Ok) (i : Nat) :
    (i < a.size → a.idx i = a.at' i) ∧ (a.idx i = .ub ↔ a.arrayLength ≤ i) ∧
      (i < a.size → ∃ v, a.idx i = .ok v a ∧ a.elems[i]? = some v) ∧
      (i < a.arrayLength → ∃ v, a.idx i = .ok v a) := by
  have hat := (C13_at h i)
  unfold GrowArray.Ok at h
  unfold GrowArray.idx GrowArray.at' GrowArray.arrayLength
  refine ⟨fun hi => by rw [if_neg (by omega)], ?_, fun hi => ?_, fun hi => ?_⟩
  · rcases Nat.lt_or_ge i a.data.length with c | c
    · rw [List.getElem?_eq_getElem c]
      constructor
      · intro e; cases e
      · intro e; omega
    · rw [List.getElem?_eq_none c]; simp [c]
  · obtain ⟨v, e⟩ := hat.2.2 hi
    refine ⟨v, ?_, e⟩
    rw [← hat.2.1 v e]; unfold GrowArray.at'; rw [if_neg (by omega)]
  · rw [List.getElem?_eq_getElem hi]; exact ⟨_, rfl⟩

/-- The default array meets the hypotheses; index 3 of an array of two elements with capacity four shows what is stored there,
where `at` throws. -/
example : (⟨[1, 2, 3, 4], 2, 0, true⟩ : GrowArray Int).Ok ∧
    (⟨[1, 2, 3, 4], 2, 0, true⟩ : GrowArray Int).idx 3 = .ok 4 ⟨[1, 2, 3, 4], 2, 0, true⟩ ∧
    (⟨[1, 2, 3, 4], 2, 0, true⟩ : GrowArray Int).at' 3 = .throw ⟨[1, 2, 3, 4], 2, 0, true⟩ := ⟨(by decide : 2 ≤ 4), rfl, rfl⟩

/-- A wrapper of foreign memory never reallocates: each of these throws and the foreign elements are untouched
(assignment has overwritten the wrapper's default value by then). -/
theorem C13_wrapper_throws (E : Elem V) {a : GrowArray V} (hr : a.canResize = false) (b : GrowArray V)
    (l : List V) (n : Nat) :
    a.assign E b = .throw { a with default := b.default } ∧ a.setTo E l = .throw a ∧ a.set E l n = .throw a ∧
      a.growArray E n = .throw a := by
  have h1 : ∀ m, a.growArray E m = .throw a := fun m => by unfold GrowArray.growArray; rw [if_pos hr]
  refine ⟨?_, ?_, ?_, h1 n⟩
  · unfold GrowArray.assign GrowArray.growArray; simp [hr]
  · unfold GrowArray.setTo; rw [C11_resize_throws E hr]
  · unfold GrowArray.set; rw [h1]

/-! ### Histories -/

/-- Operations on one array (sources are values). -/
inductive GOp (V : Type) where
  | resize (n : Nat)
  | fill (v : V)
  | write (i : Nat) (v : V)
  | assign (b : GrowArray V)
  | setTo (l : List V)
  | set (src : List V) (n : Nat)

def GOp.run (E : Elem V) : GOp V → GrowArray V → Res (GrowArray V) Unit
  | .resize n => GrowArray.resize E n
  | .fill v => GrowArray.fill E v
  | .write i v => GrowArray.setAt i v
  | .assign b => fun a => a.assign E b
  | .setTo l => GrowArray.setTo E l
  | .set src n => GrowArray.set E src n

/-- Sources are usable arrays. -/
def GOp.Allowed : GOp V → Prop
  | .assign b => b.Ok
  | .set src n => n ≤ src.length
  | _ => True

/-- Run a history, ignoring operations that throw. -/
def runG (E : Elem V) : List (GOp V) → GrowArray V → Option (GrowArray V)
  | [], a => some a
  | op :: ops, a =>
    match op.run E a with
    | .ok _ a' => runG E ops a'
    | .throw a' => runG E ops a'
    | _ => none

/-- One step: never undefined, keeps the invariant, capacity does not shrink, ownership does not change. -/
theorem C13_step (E : Elem V) {a : GrowArray V} (h : a.Ok) (op : GOp V) (ho : op.Allowed) :
    ∃ a', (op.run E a = .ok () a' ∨ op.run E a = .throw a') ∧ a'.Ok ∧ a.arrayLength ≤ a'.arrayLength ∧
      a'.canResize = a.canResize := by
  cases hr : a.canResize with
  | true =>
    cases op with
    | resize n =>
      obtain ⟨a', e, h1, -, -, h4, h5, -⟩ := C11_resize_partial E h hr n
      exact ⟨a', Or.inl e, h1, h5, h4⟩
    | fill v =>
      obtain ⟨a', e, h1, -, -, h4, h5, -⟩ := C12_fill_partial E h v
      exact ⟨a', Or.inl e, h1, by omega, by rw [h4, hr]⟩
    | write i v =>
      obtain ⟨h1, h2⟩ := C13_set_at h i v
      by_cases hi : i ≥ a.size
      · exact ⟨a, Or.inr (h1 hi), h, Nat.le_refl _, hr⟩
      · refine ⟨{ a with data := a.data.set i v }, Or.inl ?_, ?_, ?_, hr⟩
        · show GrowArray.setAt i v a = _
          unfold GrowArray.setAt GrowArray.Ok at *
          rw [if_neg hi, if_pos (by omega)]
        · simpa [GrowArray.Ok] using h
        · simp [GrowArray.arrayLength]
    | assign b =>
      obtain ⟨a', e, h1, -, -, -, h4, h5⟩ := C13_assign E (a := a) ho hr
      exact ⟨a', Or.inl e, h1, h5, h4⟩
    | setTo l =>
      obtain ⟨a', e, h1, -, -, h4, h5⟩ := C13_setTo E h hr l
      exact ⟨a', Or.inl e, h1, h4, h5⟩
    | set src n =>
      obtain ⟨a', e, h1, -, -, h4, h5⟩ := C13_set E hr src n ho
      exact ⟨a', Or.inl e, h1, h4, h5⟩
  | false =>
    cases op with
    | resize n => exact ⟨a, Or.inr (C11_resize_throws E hr n), h, Nat.le_refl _, hr⟩
    | fill v =>
      obtain ⟨a', e, h1, -, -, h4, h5, -⟩ := C12_fill_partial E h v
      exact ⟨a', Or.inl e, h1, by omega, by rw [h4, hr]⟩
    | write i v =>
      obtain ⟨h1, h2⟩ := C13_set_at h i v
      by_cases hi : i ≥ a.size
      · exact ⟨a, Or.inr (h1 hi), h, Nat.le_refl _, hr⟩
      · refine ⟨{ a with data := a.data.set i v }, Or.inl ?_, ?_, ?_, hr⟩
        · show GrowArray.setAt i v a = _
          unfold GrowArray.setAt GrowArray.Ok at *
          rw [if_neg hi, if_pos (by omega)]
        · simpa [GrowArray.Ok] using h
        · simp [GrowArray.arrayLength]
    | assign b => exact ⟨_, Or.inr (C13_wrapper_throws E hr b [] 0).1, h, Nat.le_refl _, hr⟩
    | setTo l => exact ⟨a, Or.inr (C13_wrapper_throws E hr a l 0).2.1, h, Nat.le_refl _, hr⟩
    | set src n => exact ⟨a, Or.inr (C13_wrapper_throws E hr a src n).2.2.1, h, Nat.le_refl _, hr⟩

/-- No history makes an array access memory it does not have; its capacity never shrinks. -/
theorem C13_history (E : Elem V) (ops : List (GOp V)) {a : GrowArray V} (h : a.Ok)
    (ho : ∀ op ∈ ops, op.Allowed) :
    ∃ a', runG E ops a = some a' ∧ a'.Ok ∧ a.arrayLength ≤ a'.arrayLength ∧
      (∀ i, i < a'.size → ∃ v, a'.at' i = .ok v a') := by
  induction ops generalizing a with
  | nil =>
    refine ⟨a, rfl, h, Nat.le_refl _, fun i hi => ?_⟩
    obtain ⟨-, h2, h3⟩ := C13_at h i
    obtain ⟨v, e⟩ := h3 hi
    exact ⟨v, h2 v e⟩
  | cons op ops ih =>
    obtain ⟨a1, e, h1, h2, -⟩ := C13_step E h op (ho op (List.mem_cons_self ..))
    obtain ⟨a', e', k1, k2, k3⟩ := ih h1 (fun o hm => ho o (List.mem_cons_of_mem _ hm))
    refine ⟨a', ?_, k1, by omega, k3⟩
    unfold runG
    rcases e with e | e <;> rw [e] <;> exact e'

example : ∃ a, GrowArray.new (intElem S32 (fun _ => 99)) 3 = .ok () a ∧ a.Ok ∧ a.size = a.arrayLength ∧
    (intElem S32 (fun _ => 99)).ms a.default = a.default := by
  refine ⟨⟨[0, 0, 0], 3, 0, true⟩, by decide, Nat.le_refl 3, rfl, by decide⟩

end Boof
