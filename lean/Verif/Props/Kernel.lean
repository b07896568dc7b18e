import Mathlib.Data.Rat.Floor
import Mathlib.Analysis.SpecialFunctions.Exp
import Verif.Proofs.Kernel
import Verif.Props.GrowArray
import Verif.Props.Config
/-
C42-C46: convolution kernels.

`E` describes the element type; `E.ms E.zero = E.zero` says that zero is the value with all bytes zero.
-/
namespace Boof
variable {V S : Type}

theorem loopS_throw {β : Type} {n r : Nat} {s s' : β} {body : Nat → β → M V β} {h h' h'' : Heap V} (hr : r < n)
    (e1 : M.loopS r s body h = .ok s' h') (e2 : body r s' h' = .throw h'') : M.loopS n s body h = .throw h'' := by
  induction n with
  | zero => omega
  | succ n ih =>
    by_cases e : r = n
    · subst e; exact (M.bind_ok e1).trans e2
    · exact M.bind_throw (ih (by omega))

/-! ## C42 -/

/-- `Kernel1D(width,offset)` throws exactly when the offset is outside and otherwise makes `width` zeros. -/
theorem C42_new1D (E : GrowArray.Elem S) (hz : E.ms E.zero = E.zero) (w o : Nat) (h : Heap V) :
    (w ≤ o → Kernel1D.new E w o h = .throw h) ∧
    (o < w → ∃ k, Kernel1D.new E w o h = .ok k h ∧ k.Is1D w o (fun _ => E.zero)) :=
  ⟨fun ho => by unfold Kernel1D.new; rw [if_pos ho]; rfl, fun ho => new1D_run E hz ho h⟩

/-- `Kernel1D(width)` has its origin in the middle; width 0 throws. -/
theorem C42_new1D_middle (E : GrowArray.Elem S) (hz : E.ms E.zero = E.zero) (w : Nat) (h : Heap V) :
    (w = 0 → Kernel1D.newWidth E w h = .throw h) ∧
    (0 < w → ∃ k, Kernel1D.newWidth E w h = .ok k h ∧ k.Is1D w (w / 2) (fun _ => E.zero)) :=
  ⟨fun hw => (C42_new1D E hz w (w/2) h).1 (by omega), fun hw => (C42_new1D E hz w (w/2) h).2 (by omega)⟩

example (h : Heap V) : ∃ k, Kernel1D.newWidth (intElem S32 (fun _ => 9)) 3 h = .ok k h ∧ k.Is1D 3 1 (fun _ => 0) :=
  (C42_new1D_middle _ (memsetInt_zero S32) 3 h).2 (by omega)

/-- `Kernel1D(offset,{...})` throws exactly when the offset is not a list index and otherwise holds the list. -/
theorem C42_list1D (E : GrowArray.Elem S) (hz : E.ms E.zero = E.zero) (o : Nat) (l : List S) (h : Heap V) :
    (l.length ≤ o → Kernel1D.ofList E o l h = .throw h) ∧
    (o < l.length → ∃ k, Kernel1D.ofList E o l h = .ok k h ∧ k.width = l.length ∧ k.offset = o ∧ k.data.size = l.length ∧
      ∀ i, i < l.length → k.data.data[i]? = l[i]?) := by
  constructor
  · intro ho; unfold Kernel1D.ofList; rw [if_pos ho]; rfl
  · intro ho
    obtain ⟨a0, -, e0, -, -, -, -, -, h1, h2⟩ := fresh_array E hz 0
    obtain ⟨a, e1, -, e2, e3, -⟩ := C13_setTo E (a := a0) h1 h2 l
    refine ⟨⟨l.length, o, a⟩, ?_, rfl, rfl, e3, fun i hi => ?_⟩
    · unfold Kernel1D.ofList
      rw [if_neg (by omega)]
      exact (M.bind_ok (ofGrow_ok e0 h)).trans ((M.bind_ok (ofGrow_ok e1 h)).trans rfl)
    · rw [← e2]
      unfold GrowArray.elems
      rw [List.getElem?_take, if_pos (by omega)]

example (h : Heap V) : ∃ k, Kernel1D.ofList (intElem U8 (fun _ => 9)) 2 [1, 2, 1] h = .ok k h ∧ k.width = 3 ∧ k.offset = 2 ∧
    k.data.size = 3 ∧ ∀ i, i < 3 → k.data.data[i]? = [1, 2, 1][i]? := (C42_list1D _ (memsetInt_zero U8) 2 [1, 2, 1] h).2 (by decide)

/-- Checked access to a 1D kernel: throws exactly out of range; `operator[]` gives the same value in range. -/
theorem C42_access1D {k : Kernel S} {w o : Nat} {c : Nat → S} (hk : k.Is1D w o c) (i : Nat) (h : Heap V) :
    (w ≤ i → Kernel1D.at' k i h = .throw h) ∧
    (i < w → Kernel1D.at' k i h = .ok (c i) h ∧ Kernel1D.idx k i h = .ok (c i) h) :=
  ⟨fun hi => by unfold Kernel1D.at'; rw [if_pos (by rw [hk.size]; exact hi)]; rfl, fun hi => ⟨at1D hk hi h, get1D hk hi h⟩⟩

/-- `Kernel2D(width,offset)` of less than 2^32 coefficients. -/
theorem C42_new2D_partial (E : GrowArray.Elem S) (hz : E.ms E.zero = E.zero) {w : Nat} (hw : w * w < P32) (o : Nat) (h : Heap V) :
    (w ≤ o → Kernel2D.new E w o h = .throw h) ∧
    (o < w → ∃ k, Kernel2D.new E w o h = .ok k h ∧ k.Is2D w o (fun _ _ => E.zero)) :=
  ⟨fun ho => by unfold Kernel2D.new; rw [if_pos ho]; rfl, fun ho => new2D_run E hz ho hw h⟩

example (h : Heap V) : ∃ k, Kernel2D.new (intElem S32 (fun _ => 9)) 3 1 h = .ok k h ∧ k.Is2D 3 1 (fun _ _ => 0) :=
  (C42_new2D_partial _ (memsetInt_zero S32) (by decide) 1 h).2 (by omega)

/-- `Kernel2D(width)` has its origin in the middle; width 0 throws. -/
theorem C42_new2D_middle_partial (E : GrowArray.Elem S) (hz : E.ms E.zero = E.zero) {w : Nat} (hw : w * w < P32) (h : Heap V) :
    (w = 0 → Kernel2D.newWidth E w h = .throw h) ∧
    (0 < w → ∃ k, Kernel2D.newWidth E w h = .ok k h ∧ k.Is2D w (w / 2) (fun _ _ => E.zero)) :=
  ⟨fun _ => (C42_new2D_partial E hz hw (w/2) h).1 (by omega), fun _ => (C42_new2D_partial E hz hw (w/2) h).2 (by omega)⟩

example (h : Heap V) : ∃ k, Kernel2D.newWidth (intElem S32 (fun _ => 9)) 5 h = .ok k h ∧ k.Is2D 5 2 (fun _ _ => 0) :=
  (C42_new2D_middle_partial _ (memsetInt_zero S32) (by decide) h).2 (by omega)

/-- `radius()` is half the width rounded down, so a kernel made from an odd width alone reaches as far to one side of its origin
as to the other. -/
theorem C42_radius (E : GrowArray.Elem S) (hz : E.ms E.zero = E.zero) (r : Nat) (h : Heap V) :
    (∃ k, Kernel1D.newWidth E (2 * r + 1) h = .ok k h ∧ k.radius = r ∧ k.offset = r ∧ k.width = 2 * k.radius + 1) ∧
    ((2 * r + 1) * (2 * r + 1) < P32 →
      ∃ k, Kernel2D.newWidth E (2 * r + 1) h = .ok k h ∧ k.radius = r ∧ k.offset = r ∧ k.width = 2 * k.radius + 1) := by
  have e : (2 * r + 1) / 2 = r := by omega
  have H : ∀ {k : Kernel S}, k.width = 2 * r + 1 → k.offset = (2 * r + 1) / 2 →
      k.radius = r ∧ k.offset = r ∧ k.width = 2 * k.radius + 1 := by
    intro k h1 h2
    have : k.radius = r := by unfold Kernel.radius; rw [h1, e]
    exact ⟨this, by rw [h2, e], by rw [this, h1]⟩
  constructor
  · obtain ⟨k, e1, hk⟩ := (C42_new1D_middle E hz (2 * r + 1) h).2 (by omega)
    exact ⟨k, e1, H hk.width hk.offset⟩
  · intro hw
    obtain ⟨k, e1, hk⟩ := (C42_new2D_middle_partial E hz hw h).2 (by omega)
    exact ⟨k, e1, H hk.width hk.offset⟩

/-- The restriction is needed: a kernel of width 65536 is constructed without any coefficient, and every access throws. -/
theorem C42_new2D_refuted (E : GrowArray.Elem S) (hz : E.ms E.zero = E.zero) (h : Heap V) :
    ∃ k, Kernel2D.new E 65536 0 h = .ok k h ∧ k.width = 65536 ∧ k.data.size = 0 ∧
      ∀ x y, Kernel2D.at' k x y h = .throw h := by
  obtain ⟨a0, a, e0, e1, e2, -⟩ := fresh_array E hz (wrap32 (65536 * 65536))
  have e2 : a.size = 0 := e2
  refine ⟨⟨65536, 0, a⟩, ?_, rfl, e2, fun x y => ?_⟩
  · unfold Kernel2D.new
    rw [if_neg (by omega)]
    exact (M.bind_ok (ofGrow_ok e0 h)).trans ((M.bind_ok (ofGrow_ok e1 h)).trans rfl)
  · unfold Kernel2D.at'
    by_cases q : x ≥ 65536 ∨ y ≥ 65536
    · rw [if_pos q]; rfl
    · rw [if_neg q, if_pos (by simp only [e2]; omega)]; rfl

/-- `Kernel2D(offset,{{...},...})` of less than 2^32 coefficients throws when a row's length is not the number of rows and
otherwise holds the rows.  The offset is stored as given. -/
theorem C42_list2D_partial (E : GrowArray.Elem S) (hz : E.ms E.zero = E.zero) (o : Nat) (l : List (List S))
    (hw : l.length * l.length < P32) (h : Heap V) :
    ((∃ row ∈ l, row.length ≠ l.length) → Kernel2D.ofList E o l h = .throw h) ∧
    ((∀ row ∈ l, row.length = l.length) → ∃ k, Kernel2D.ofList E o l h = .ok k h ∧ k.width = l.length ∧ k.offset = o ∧
      k.data.size = l.length * l.length ∧
      ∀ x y, x < l.length → y < l.length → k.data.data[y * l.length + x]? = l[y]?.bind (fun row => row[x]?)) := by
  obtain ⟨a0, a, e0, e1, e2, e3, e4, -⟩ := fresh_array E hz (wrap32 (l.length * l.length))
  rw [wrap32_of_lt hw] at e2 e3
  have start : Kernel2D.ofList E o l h = M.loopS l.length (⟨l.length, o, a⟩ : Kernel S) (fun r k =>
      match l[r]? with
      | none => M.ub
      | some row =>
        if row.length ≠ l.length then M.throw
        else M.loopS row.length k (fun c k => match row[c]? with
          | none => M.ub
          | some v => k.put (r * l.length + c) v)) h := by
    unfold Kernel2D.ofList
    exact (M.bind_ok (ofGrow_ok e0 h)).trans (M.bind_ok (ofGrow_ok e1 h))
  rw [start]
  -- the value stored in cell `n`
  let v : Nat → S := fun n => ((l[n / l.length]?.bind (fun row => row[n % l.length]?)).getD E.zero)
  have hv : ∀ x y row s, x < l.length → l[y]? = some row → row[x]? = some s → v (y * l.length + x) = s := by
    intro x y row s hx hy hs
    show ((l[(y * l.length + x) / l.length]?.bind (fun row => row[(y * l.length + x) % l.length]?)).getD E.zero) = s
    rw [Nat.mul_comm, Nat.mul_add_mod, Nat.mod_eq_of_lt hx, Nat.mul_add_div (by omega), Nat.div_eq_of_lt hx, Nat.add_zero, hy]
    simp [hs]
  -- reading the first `m` rows, all of the right length
  have main : ∀ m, m ≤ l.length → (∀ y row, y < m → l[y]? = some row → row.length = l.length) →
      ∃ k2, M.loopS m (⟨l.length, o, a⟩ : Kernel S) (fun r k =>
        match l[r]? with
        | none => M.ub
        | some row =>
          if row.length ≠ l.length then M.throw
          else M.loopS row.length k (fun c k => match row[c]? with
            | none => M.ub
            | some v => k.put (r * l.length + c) v)) h = .ok k2 h ∧
        (⟨l.length, o, a⟩ : Kernel S).Filled v (fun j => False ∨ ∃ y, y < m ∧ ∃ x, x < l.length ∧ j = y * l.length + x) k2 := by
    intro m hm hrows
    refine (Kernel.Filled.refl (⟨l.length, o, a⟩ : Kernel S) v).loop (n := m) (h := h)
      (R := fun y j => ∃ x, x < l.length ∧ j = y * l.length + x) ?_
    intro y k1 hy hf
    have hyl : l[y]? = some l[y] := List.getElem?_eq_getElem (by omega)
    have hlen := hrows y _ hy hyl
    rw [hyl]
    simp only
    rw [if_neg (by simpa using hlen), hlen]
    refine hf.loop (n := l.length) (h := h) (R := fun x j => j = y * l.length + x) ?_
    intro x k2 hx hf2
    have hxl : l[y][x]? = some l[y][x] := List.getElem?_eq_getElem (by omega)
    rw [hxl]
    exact hf2.put (by have := idx2_lt hx (show y < l.length by omega); show _ < a.data.length; omega)
      (hv x y _ _ hx hyl hxl).symm h
  constructor
  · rintro ⟨row, hmem, hne⟩
    -- the first bad row
    have hex : ∃ y : Nat, ∃ row : List S, l[y]? = some row ∧ row.length ≠ l.length := by
      obtain ⟨i, hi⟩ := List.mem_iff_getElem?.mp hmem
      exact ⟨i, row, hi, hne⟩
    classical
    obtain ⟨row, h1, h2⟩ := Nat.find_spec hex
    have hlt : Nat.find hex < l.length := (List.getElem?_eq_some_iff.mp h1).1
    obtain ⟨k2, e, -⟩ := main (Nat.find hex) (by omega) (by
      intro y row hy hrow
      by_contra hc
      exact Nat.find_min hex hy ⟨row, hrow, hc⟩)
    refine loopS_throw hlt e ?_
    beta_reduce
    rw [h1]
    simp only
    rw [if_pos h2]; rfl
  · intro hall
    obtain ⟨k2, e, f⟩ := main l.length (Nat.le_refl _) (fun y row _ hrow => hall row (List.mem_of_getElem? hrow))
    refine ⟨k2, e, f.width, f.offset, by rw [f.size]; exact e2, fun x y hx hy => ?_⟩
    have hyl : l[y]? = some l[y] := List.getElem?_eq_getElem hy
    have hlen := hall _ (List.mem_of_getElem? hyl)
    have hxl : l[y][x]? = some l[y][x] := List.getElem?_eq_getElem (by omega)
    rw [f.yes (y * l.length + x) (Or.inr ⟨y, hy, x, hx, rfl⟩) (by
      have := idx2_lt hx hy; show _ < a.data.length; omega), hv x y _ _ hx hyl hxl, hyl]
    exact hxl.symm

example (h : Heap V) : ∃ k, Kernel2D.ofList (intElem S32 (fun _ => 9)) 1 [[1, 2], [3, 4]] h = .ok k h ∧ k.width = 2 ∧
    k.offset = 1 ∧ k.data.size = 4 ∧ ∀ x y, x < 2 → y < 2 → k.data.data[y * 2 + x]? = [[1, 2], [3, 4]][y]?.bind (fun row => row[x]?) :=
  (C42_list2D_partial _ (memsetInt_zero S32) 1 [[1, 2], [3, 4]] (by decide) h).2 (by decide)

/-- A 2D kernel can be made from a list with an origin outside the kernel. -/
theorem C42_list2D_refuted (h : Heap V) :
    ∃ k, Kernel2D.ofList (intElem S32 (fun _ => 9)) 7 [[5]] h = .ok k h ∧ k.width = 1 ∧ k.offset = 7 := by
  obtain ⟨k, e, h1, h2, -⟩ := (C42_list2D_partial (intElem S32 (fun _ => 9)) (memsetInt_zero S32) 7 [[5]] (by decide) h).2 (by decide)
  exact ⟨k, e, h1, h2⟩

/-- Checked access to a 2D kernel throws exactly out of range and writes exactly the addressed coefficient. -/
theorem C42_access2D {k : Kernel S} {w o : Nat} {c : Nat → Nat → S} (hk : k.Is2D w o c) (hw : w * w < P32) (x y : Nat) (s : S)
    (h : Heap V) :
    (w ≤ x ∨ w ≤ y → Kernel2D.at' k x y h = .throw h ∧ Kernel2D.setAt k x y s h = .throw h) ∧
    (x < w → y < w → Kernel2D.at' k x y h = .ok (c x y) h ∧
      ∃ k', Kernel2D.setAt k x y s h = .ok k' h ∧ k'.Is2D w o (fun x' y' => if x' = x ∧ y' = y then s else c x' y')) := by
  constructor
  · intro hxy
    unfold Kernel2D.at' Kernel2D.setAt
    rw [hk.width, if_pos hxy, if_pos hxy]
    exact ⟨rfl, rfl⟩
  · intro hx hy
    refine ⟨at2D hk hw hx hy h, ?_⟩
    have := idx2_lt hx hy
    have hl := hk.length
    unfold Kernel2D.setAt
    rw [hk.width, hk.size, wrap32_of_lt (by omega), if_neg (by omega), if_neg (by omega)]
    obtain ⟨k', e, f⟩ := (Kernel.Filled.refl k (fun _ => s)).put (i := y * w + x) (by omega) rfl h
    refine ⟨k', e, by rw [f.width, hk.width], by rw [f.offset, hk.offset], by rw [f.size, hk.size], fun x' y' hx' hy' => ?_⟩
    have := idx2_lt hx' hy'
    by_cases q : x' = x ∧ y' = y
    · rw [if_pos q, q.1, q.2]
      exact f.yes _ (Or.inr rfl) (by omega)
    · rw [if_neg q, f.no, hk.coef x' y' hx' hy']
      rintro (w | w)
      · exact w
      · exact q (idx2_inj hx' hx w)

/-- `operator=` copies a 1D kernel: width, origin and coefficients. -/
theorem C42_assign (E : GrowArray.Elem S) {k other : Kernel S} (hr : k.data.canResize = true) (ho : other.data.Ok) (h : Heap V) :
    ∃ k', k.assign E other h = .ok k' h ∧ k'.width = other.width ∧ k'.offset = other.offset ∧ k'.data.size = other.data.size ∧
      k'.data.elems = other.data.elems := by
  obtain ⟨a, e1, e2, e3, e4, -⟩ := C13_assign E (a := k.data) ho hr
  refine ⟨⟨other.width, other.offset, a⟩, ?_, rfl, rfl, e4, e3⟩
  unfold Kernel.assign
  exact (M.bind_ok (ofGrow_ok e1 h)).trans rfl

example (h : Heap V) : ∃ k', (⟨1, 0, ⟨[4], 1, 0, true⟩⟩ : Kernel Int).assign (intElem S32 (fun _ => 9)) ⟨3, 2, ⟨[1, 2, 3, 8], 3, 0, true⟩⟩ h = .ok k' h ∧
    k'.width = 3 ∧ k'.offset = 2 ∧ k'.data.size = 3 ∧ k'.data.elems = [1, 2, 3] :=
  C42_assign (intElem S32 (fun _ => 9)) rfl (by unfold GrowArray.Ok; decide) h

/-! ## C43 -/

/-- `table1D(w)`: `w` ones, origin in the middle; `w = 0` throws. -/
theorem C43_table (E : GrowArray.Elem S) (hz : E.ms E.zero = E.zero) (one : S) (w : Nat) (h : Heap V) :
    (w = 0 → FactoryKernel.table1D E one w h = .throw h) ∧
    (0 < w → ∃ k, FactoryKernel.table1D E one w h = .ok k h ∧ k.Is1D w (w / 2) (fun _ => one)) := by
  constructor
  · intro hw
    unfold FactoryKernel.table1D
    exact M.bind_throw ((C42_new1D_middle E hz w h).1 hw)
  · intro hw
    obtain ⟨k, e, hk⟩ := (C42_new1D_middle E hz w h).2 hw
    unfold FactoryKernel.table1D
    obtain ⟨k2, e2, hk2⟩ := fill1D hk (body := fun i k => k.put i one) (v := fun _ => one) (h := h) (fun i k1 _ _ _ => rfl)
    exact ⟨k2, (M.bind_ok e).trans e2, hk2⟩

/-- The integer mean kernel is the table kernel. -/
theorem C43_meanInt (t : IntTy) (junk : Nat → Int) {w : Nat} (hw : 0 < w) (h : Heap V) :
    ∃ k, FactoryKernel.mean1DInt (intElem t junk) w h = .ok k h ∧ k.Is1D w (w / 2) (fun _ => 1) :=
  (C43_table (intElem t junk) (memsetInt_zero t) 1 w h).2 hw

section
variable {K : Type} [Field K] [LinearOrder K] [IsStrictOrderedRing K] [FloorRing K]

/-- The sum of `table1D(w)` is `w` (exact arithmetic). -/
theorem C43_tableSum (E : GrowArray.Elem K) (hz : E.ms E.zero = E.zero) {w : Nat} (hw : 0 < w) (h : Heap V) :
    ∃ k, FactoryKernel.table1D E 1 w h = .ok k h ∧ k.sumK h = .ok (w : K) h := by
  obtain ⟨k, e, hk⟩ := (C43_table E hz (1 : K) w h).2 hw
  refine ⟨k, e, ?_⟩
  rw [kernelSum_run k hk.size hk.coef h, sumF_const, mul_one]

/-! ## C44 -/

/-- After `normalize` the coefficients of a 1D kernel are the old ones divided by their sum, so they sum to one and keep
their ratios.  The origin does not move. -/
theorem C44_normalize1D {k : Kernel K} {w o : Nat} {c : Nat → K} (hk : k.Is1D w o c) (h0 : sumF w c ≠ 0) (h : Heap V) :
    ∃ k' c', FactoryKernel.normalize k h = .ok k' h ∧ k'.Is1D w o c' ∧ sumF w c' = 1 ∧ k'.sumK h = .ok 1 h ∧
      (∀ i j, c' i * c j = c' j * c i) ∧ ∀ i, c' i = c i / sumF w c := by
  obtain ⟨k', e, h1, h2, h3, h4, -⟩ := normalize_run k (o := o) hk.width hk.size hk.length hk.coef (Nat.le_refl w) h0 h
  have hs : sumF w (fun i => c i / sumF w c) = 1 := by rw [sumF_div, div_self h0]
  refine ⟨k', fun i => c i / sumF w c, e, ⟨h1, by rw [h2, hk.offset], h3, h4⟩, hs, ?_, fun i j => by ring, fun i => rfl⟩
  rw [kernelSum_run k' h3 h4 h, hs]

/-- The floating mean kernel: every coefficient is `1/w`, the sum is one. -/
theorem C43_mean (E : GrowArray.Elem K) (hz : E.ms E.zero = E.zero) {w : Nat} (hw : 0 < w) (h : Heap V) :
    ∃ k, FactoryKernel.mean1D E w h = .ok k h ∧ k.Is1D w (w / 2) (fun _ => 1 / (w : K)) ∧ k.sumK h = .ok 1 h := by
  obtain ⟨k, e, hk⟩ := (C43_table E hz (1 : K) w h).2 hw
  have hs : sumF w (fun _ => (1 : K)) = w := by rw [sumF_const, mul_one]
  have hw0 : (w : K) ≠ 0 := by exact_mod_cast (by omega : w ≠ 0)
  obtain ⟨k', c', e', h1, -, h2, -, h3⟩ := C44_normalize1D hk (by rw [hs]; exact hw0) h
  refine ⟨k', (M.bind_ok e).trans e', ⟨h1.width, h1.offset, h1.size, fun i hi => ?_⟩, h2⟩
  rw [h1.coef i hi, h3, hs]

example (h : Heap V) : ∃ k, FactoryKernel.mean1D (⟨id, 8, 0, fun _ => 7⟩ : GrowArray.Elem Rat) 4 h = .ok k h ∧
    k.Is1D 4 2 (fun _ => 1 / ((4 : Nat) : Rat)) ∧ k.sumK h = .ok 1 h := C43_mean _ rfl (by omega) h

/-- What `normalize` does to a 2D kernel: only row 0 is divided by the sum of all coefficients.  In particular it changes
nothing when the sum is already one. -/
theorem C44_normalize2D_partial {k : Kernel K} {w o : Nat} {c : Nat → Nat → K} (hk : k.Is2D w o c) (hw : 0 < w)
    (h0 : sumF w (fun y => sumF w (fun x => c x y)) ≠ 0) (h : Heap V) :
    ∃ k', FactoryKernel.normalize k h = .ok k' h ∧
      k'.Is2D w o (fun x y => if y = 0 then c x y / sumF w (fun y => sumF w (fun x => c x y)) else c x y) ∧
      (sumF w (fun y => sumF w (fun x => c x y)) = 1 → k'.Is2D w o c) ∧
      (w = 1 → k'.sumK h = .ok 1 h) := by
  have hflat : ∀ x y, x < w → (fun n => c (n % w) (n / w)) (y * w + x) = c x y := by
    intro x y hx
    show c ((y * w + x) % w) ((y * w + x) / w) = _
    rw [Nat.mul_comm, Nat.mul_add_mod, Nat.mod_eq_of_lt hx, Nat.mul_add_div (by omega), Nat.div_eq_of_lt hx, Nat.add_zero]
  have hsum : sumF (w * w) (fun n => c (n % w) (n / w)) = sumF w (fun y => sumF w (fun x => c x y)) := by
    rw [sumF_rows]
    exact sumF_congr (fun y _ => sumF_congr (fun x hx => hflat x y hx))
  have hc : ∀ n, n < w * w → k.data.data[n]? = some (c (n % w) (n / w)) := by
    intro n hn
    have := hk.coef (n % w) (n / w) (Nat.mod_lt _ hw) (Nat.div_lt_of_lt_mul hn)
    rwa [Nat.mul_comm, Nat.div_add_mod] at this
  have hww : w ≤ w * w := Nat.le_mul_of_pos_left w hw
  obtain ⟨k', e, h1, h2, h3, h4, h5⟩ := normalize_run k (o := o) hk.width hk.size (Nat.le_trans hww hk.length) hc
    hww (by rw [hsum]; exact h0) h
  rw [hsum] at h4
  have hmain : k'.Is2D w o (fun x y => if y = 0 then c x y / sumF w (fun y => sumF w (fun x => c x y)) else c x y) := by
    refine ⟨h1, by rw [h2, hk.offset], h3, fun x y hx hy => ?_⟩
    by_cases q : y = 0
    · subst q
      rw [if_pos rfl, h4 _ (by omega)]
      exact congrArg (fun t => some (t / _)) (hflat x 0 hx)
    · rw [if_neg q, h5 _ (by have := Nat.le_mul_of_pos_left w (Nat.pos_of_ne_zero q); omega), hk.coef x y hx hy]
  refine ⟨k', e, hmain, ?_, ?_⟩
  · intro h1'
    refine ⟨hmain.width, hmain.offset, hmain.size, fun x y hx hy => ?_⟩
    rw [hmain.coef x y hx hy, h1', div_one]
    split <;> rfl
  · intro hw1
    subst hw1
    simp only [sumF, zero_add] at h4 h0
    rw [kernelSum_run k' h3 (c := fun _ => 1) (fun i hi => by
      rw [h4 i (by omega)]
      have : i = 0 := by omega
      subst this
      simp only [Nat.zero_mod, Nat.zero_div]
      rw [div_self h0]) h]
    simp [sumF]

/-- For a 2D kernel the claim is false: normalising the 2x2 kernel of ones gives 1/4, 1/4, 1, 1, whose sum is 5/2. -/
theorem C44_normalize2D_refuted (h : Heap V) :
    ∃ k, FactoryKernel.normalize (⟨2, 1, ⟨[1, 1, 1, 1], 4, 0, true⟩⟩ : Kernel Rat) h = .ok k h ∧
      k.data.data = [1/4, 1/4, 1, 1] ∧ k.sumK h = .ok (5/2) h := by
  refine ⟨⟨2, 1, ⟨[1/4, 1/4, 1, 1], 4, 0, true⟩⟩, ?_, rfl, ?_⟩
  · have e := kernelSum_run (V := V) (⟨2, 1, ⟨[1, 1, 1, 1], 4, 0, true⟩⟩ : Kernel Rat) (n := 4) (c := fun _ => 1) rfl (by decide) h
    have e4 : sumF 4 (fun _ => (1:Rat)) = 4 := by rw [sumF_const]; norm_num
    rw [e4] at e
    unfold FactoryKernel.normalize
    refine (M.bind_ok e).trans ?_
    simp only [M.loopS]
    have h4 : ¬((4:Rat) = 0) := by norm_num
    simp only [if_neg h4]
    rfl
  · have e := kernelSum_run (V := V) (⟨2, 1, ⟨[1/4, 1/4, 1, 1], 4, 0, true⟩⟩ : Kernel Rat) (n := 4)
      (c := fun i => if i < 2 then 1/4 else 1) rfl (by decide +kernel) h
    rw [e]
    congr 1
    simp only [sumF]; norm_num

example (h : Heap V) : ∃ k' c', FactoryKernel.normalize (⟨2, 1, ⟨[3, 1], 2, 0, true⟩⟩ : Kernel Rat) h = .ok k' h ∧ k'.Is1D 2 1 c' ∧
    sumF 2 c' = 1 ∧ k'.sumK h = .ok 1 h ∧ (∀ i j, c' i * (fun i => if i = 0 then 3 else 1) j = c' j * (fun i => if i = 0 then 3 else 1) i) ∧
    ∀ i, c' i = (fun i => if i = 0 then 3 else 1) i / sumF 2 (fun i => if i = 0 then 3 else 1) :=
  C44_normalize1D (k := ⟨2, 1, ⟨[3, 1], 2, 0, true⟩⟩) (c := fun i => if i = 0 then 3 else 1) ⟨rfl, rfl, rfl, by decide⟩ (by
    simp [sumF]; norm_num) h

/-! ## C45 -/

/-- Distance of coefficient `i` of a kernel of width `w` from the middle. -/
def fromMiddle (K : Type) [Field K] (w i : Nat) : K := (i : K) - ((w : K) - 1) / 2

/-- `k` is the normalised sampled Gaussian of width `w` and standard deviation `sigma`: positive, symmetric, decreasing
away from the middle, with sum one, and proportional to `ex(-d*d/(2*sigma*sigma))` where `d` is the distance from the
middle. -/
structure IsGaussian (ex : K → K) (sigma : K) (w : Nat) (c : Nat → K) : Prop where
  pos : ∀ i, i < w → 0 < c i
  symm : ∀ i, i < w → c (w - 1 - i) = c i
  decreasing : ∀ i j, i < w → j < w → |fromMiddle K w i| < |fromMiddle K w j| → c j < c i
  sum : sumF w c = 1
  ratio : ∀ i j, i < w → j < w →
    c i * ex (-(fromMiddle K w j * fromMiddle K w j) / (2 * sigma * sigma)) =
    c j * ex (-(fromMiddle K w i * fromMiddle K w i) / (2 * sigma * sigma))

theorem fromMiddle_symm {w i : Nat} (hi : i < w) : fromMiddle K w (w - 1 - i) = -fromMiddle K w i := by
  unfold fromMiddle
  rw [Nat.sub_sub, Nat.cast_sub (by omega)]
  push_cast
  ring

theorem ex_arg_lt {sigma a b : K} (hs : 0 < sigma) (h : |a| < |b|) : -(b * b) / (2 * sigma * sigma) < -(a * a) / (2 * sigma * sigma) := by
  have : a * a < b * b := by
    rw [← abs_mul_abs_self a, ← abs_mul_abs_self b]
    exact mul_self_lt_mul_self (abs_nonneg a) h
  exact div_lt_div_of_pos_right (by linarith) (by positivity)

/-- The sampling and normalising part of `gaussian1D`. -/
theorem gaussian_core (E : GrowArray.Elem K) (hz : E.ms E.zero = E.zero) {ex : K → K} {c0 : K} (hc0 : 0 < c0)
    (hex : ∀ x, 0 < ex x) (hmono : ∀ x y, x < y → ex x < ex y) {sigma : K} (hs : 0 < sigma) {w : Nat} (hw : 0 < w)
    (hw2 : w < 2147483648) (h : Heap V) :
    ∃ k c, (do
      let ret ← Kernel1D.newWidth E (toU32 (w : Int))
      let ret ← M.loopS (w : Int).toNat ret (fun i k =>
        k.put i (FactoryKernel.computePDF ex c0 0 sigma
          ((((i : Int) - (w : Int).tdiv 2 : Int) : K) + (if (w : Int).tmod 2 = 1 then 0 else 1/2))))
      FactoryKernel.normalize ret : M V (Kernel K)) h = .ok k h ∧ k.Is1D w (w / 2) c ∧ IsGaussian ex sigma w c ∧ k.sumK h = .ok 1 h := by
  have hsample : ∀ i : Nat, ((((i : Int) - (w : Int).tdiv 2 : Int) : K) + (if (w : Int).tmod 2 = 1 then 0 else 1/2)) = fromMiddle K w i := by
    intro i
    unfold fromMiddle
    have e1 : (w : Int).tdiv 2 = ((w / 2 : Nat) : Int) := by
      rw [Int.tdiv_eq_ediv_of_nonneg (by omega)]; rfl
    have e2 : (w : Int).tmod 2 = ((w % 2 : Nat) : Int) := by
      rw [Int.tmod_eq_emod_of_nonneg (by omega)]; rfl
    rw [e1, e2]
    have hd : w = 2 * (w / 2) + w % 2 := (Nat.div_add_mod w 2).symm
    have hm : w % 2 = 0 ∨ w % 2 = 1 := by omega
    generalize w / 2 = r at *
    rcases hm with hm | hm
    · rw [hm] at hd ⊢
      rw [if_neg (by decide)]
      have : (w : K) = 2 * (r : K) := by rw [hd]; push_cast; ring
      rw [this]; push_cast; ring
    · rw [hm] at hd ⊢
      rw [if_pos (by decide)]
      have : (w : K) = 2 * (r : K) + 1 := by rw [hd]; push_cast; ring
      rw [this]; push_cast; ring
  let p : Nat → K := fun i => ex (-(fromMiddle K w i * fromMiddle K w i) / (2 * sigma * sigma)) / (sigma * c0)
  have hp : ∀ i : Nat, FactoryKernel.computePDF ex c0 0 sigma
      ((((i : Int) - (w : Int).tdiv 2 : Int) : K) + (if (w : Int).tmod 2 = 1 then 0 else 1/2)) = p i := by
    intro i
    rw [hsample i]
    unfold FactoryKernel.computePDF
    rw [sub_zero]
  have hppos : ∀ i, 0 < p i := fun i => div_pos (hex _) (mul_pos hs hc0)
  have hsum : 0 < sumF w p := sumF_pos hw (fun i _ => hppos i)
  rw [toU32_of_nonneg (by omega) (by show (w : Int) < (4294967296 : Nat); omega), Int.toNat_natCast]
  obtain ⟨k, e, hk⟩ := (C42_new1D_middle E hz w h).2 hw
  obtain ⟨k1, e1, hk1⟩ := fill1D hk (v := p) (h := h) (body := fun i k =>
        k.put i (FactoryKernel.computePDF ex c0 0 sigma
          ((((i : Int) - (w : Int).tdiv 2 : Int) : K) + (if (w : Int).tmod 2 = 1 then 0 else 1/2)))) (fun i k1 _ _ _ => by
    beta_reduce
    rw [hp i])
  obtain ⟨k2, c, e2, hk2, hs1, hs2, hrat, hc⟩ := C44_normalize1D hk1 (ne_of_gt hsum) h
  have hsc : 0 < sigma * c0 := mul_pos hs hc0
  refine ⟨k2, c, (M.bind_ok e).trans ((M.bind_ok e1).trans e2), hk2, ?_, hs2⟩
  refine ⟨fun i _ => by rw [hc]; exact div_pos (hppos i) hsum, fun i hi => ?_, fun i j hi hj hd => ?_, hs1, fun i j hi hj => ?_⟩
  · rw [hc, hc]
    show ex (-(fromMiddle K w (w-1-i) * fromMiddle K w (w-1-i)) / (2 * sigma * sigma)) / (sigma * c0) / _ = p i / _
    rw [fromMiddle_symm hi, neg_mul_neg]
  · rw [hc, hc]
    refine div_lt_div_of_pos_right ?_ hsum
    exact div_lt_div_of_pos_right (hmono _ _ (ex_arg_lt hs hd)) hsc
  · rw [hc, hc]
    show ex _ / _ / _ * _ = ex _ / _ / _ * _
    ring

/-- `gaussian1D(sigma,width)` with both parameters positive.  `ex` is the exponential (any positive increasing function) and
`c0` the constant `SQRT_2_PI`; exact arithmetic. -/
theorem C45_gaussian1D (E : GrowArray.Elem K) (hz : E.ms E.zero = E.zero) {ex : K → K} {c0 : K} (hc0 : 0 < c0)
    (hex : ∀ x, 0 < ex x) (hmono : ∀ x y, x < y → ex x < ex y) {sigma : K} (hs : 0 < sigma) {w : Nat} (hw : 0 < w)
    (hw2 : w < 2147483648) (h : Heap V) :
    ∃ k c, FactoryKernel.gaussian1D E ex c0 sigma w h = .ok k h ∧ k.Is1D w (w / 2) c ∧ IsGaussian ex sigma w c ∧ k.sumK h = .ok 1 h := by
  unfold FactoryKernel.gaussian1D
  rw [if_neg (by omega), if_neg (by exact not_le.mpr hs)]
  exact gaussian_core E hz hc0 hex hmono hs hw hw2 h

/-- `gaussian1D(sigma,width)` with `width <= 0`: the width becomes `2*r+1` with `r = ceil((5*sigma-1)/2)`, always odd and at
least one. -/
theorem C45_gaussian1D_sigma (E : GrowArray.Elem K) (hz : E.ms E.zero = E.zero) {ex : K → K} {c0 : K} (hc0 : 0 < c0)
    (hex : ∀ x, 0 < ex x) (hmono : ∀ x y, x < y → ex x < ex y) {sigma : K} (hs : 0 < sigma) {width : Int} (hw : width ≤ 0)
    {r : Int} (hr : r = ⌈(5 * sigma - 1) / 2⌉) (hr2 : 2 * r + 1 < 2147483648) (h : Heap V) :
    0 ≤ r ∧ ∃ k c, FactoryKernel.gaussian1D E ex c0 sigma width h = .ok k h ∧ k.Is1D (2 * r.toNat + 1) r.toNat c ∧
      IsGaussian ex sigma (2 * r.toNat + 1) c ∧ k.sumK h = .ok 1 h := by
  have hr0 : 0 ≤ r := by
    have : (-1 : Int) < r := by
      rw [hr, Int.lt_ceil]; push_cast; linarith
    omega
  refine ⟨hr0, ?_⟩
  unfold FactoryKernel.gaussian1D
  rw [if_pos hw]
  have e1 : (FactoryKernel.radiusForSigma sigma 0 : M V Int) h = .ok r h := by
    unfold FactoryKernel.radiusForSigma M.toInt
    rw [if_neg (not_le.mpr hs)]
    have : ((5 + (4/5) * ((0 : Int) : K)) * sigma - 1) / 2 = (5 * sigma - 1) / 2 := by push_cast; ring
    rw [this, ← hr]
    have ht : truncK (r : K) = r := by
      rw [truncK_nonneg (by exact_mod_cast hr0), Int.floor_intCast]
    rw [ht, if_pos ⟨by show -2147483648 ≤ r; omega, by show r ≤ 2147483647; omega⟩]
    rfl
  have e2 : (do
      let r ← FactoryKernel.radiusForSigma sigma 0
      let w2 ← S32.arith (r * 2)
      let w ← S32.arith (w2 + 1)
      pure (sigma, w) : M V (K × Int)) h = .ok (sigma, ((2 * r.toNat + 1 : Nat) : Int)) h := by
    refine (M.bind_ok e1).trans ?_
    refine (M.bind_ok (show (S32.arith (r * 2) : M V Int) h = .ok (r * 2) h from ?_)).trans ?_
    · exact IntTy.arith_run (by decide) ⟨by show -2147483648 ≤ r * 2; omega, by show r * 2 ≤ 2147483647; omega⟩ h
    refine (M.bind_ok (show (S32.arith (r * 2 + 1) : M V Int) h = .ok (r * 2 + 1) h from ?_)).trans ?_
    · exact IntTy.arith_run (by decide) ⟨by show -2147483648 ≤ r * 2 + 1; omega, by show r * 2 + 1 ≤ 2147483647; omega⟩ h
    show Res.ok (sigma, r * 2 + 1) h = _
    congr 2
    omega
  rw [M.bind_ok e2]
  have := gaussian_core E hz hc0 hex hmono hs (w := 2 * r.toNat + 1) (by omega) (by omega) h
  rw [show (2 * r.toNat + 1) / 2 = r.toNat by omega] at this
  exact this

/-- `gaussian1D(sigma,width)` with `sigma <= 0` and `width >= 2`: sigma becomes `(2*(width/2)+1)/5`. -/
theorem C45_gaussian1D_width (E : GrowArray.Elem K) (hz : E.ms E.zero = E.zero) {ex : K → K} {c0 : K} (hc0 : 0 < c0)
    (hex : ∀ x, 0 < ex x) (hmono : ∀ x y, x < y → ex x < ex y) {sigma : K} (hs : sigma ≤ 0) {w : Nat} (hw : 2 ≤ w)
    (hw2 : w < 2147483648) (h : Heap V) :
    ∃ k c, FactoryKernel.gaussian1D E ex c0 sigma w h = .ok k h ∧ k.Is1D w (w / 2) c ∧
      IsGaussian ex ((((w / 2 : Nat) : K) * 2 + 1) / 5) w c ∧ k.sumK h = .ok 1 h := by
  unfold FactoryKernel.gaussian1D
  rw [if_neg (by omega), if_pos hs]
  have e1 : (FactoryKernel.sigmaForRadius ((((w : Int).tdiv 2 : Int)) : K) 0 : M V K) h = .ok ((((w / 2 : Nat) : K) * 2 + 1) / 5) h := by
    unfold FactoryKernel.sigmaForRadius
    have e1 : (w : Int).tdiv 2 = ((w / 2 : Nat) : Int) := by
      rw [Int.tdiv_eq_ediv_of_nonneg (by omega)]; rfl
    rw [e1, if_neg (by
      rw [not_le]
      have : 0 < w / 2 := by omega
      exact_mod_cast this)]
    show Res.ok _ h = _
    congr 1
    generalize w / 2 = r
    push_cast
    ring
  have e2 : (do
      let s ← FactoryKernel.sigmaForRadius ((((w : Int).tdiv 2 : Int)) : K) 0
      pure (s, (w : Int)) : M V (K × Int)) h = .ok ((((w / 2 : Nat) : K) * 2 + 1) / 5, (w : Int)) h := (M.bind_ok e1).trans rfl
  rw [M.bind_ok e2]
  exact gaussian_core E hz hc0 hex hmono (by positivity) (by omega) hw2 h

/-- Without a positive sigma or a width of at least two there is no kernel: an error is thrown. -/
theorem C45_gaussian1D_throws (E : GrowArray.Elem K) (ex : K → K) (c0 : K) {sigma : K} (hs : sigma ≤ 0) {width : Int} (hw : width ≤ 1)
    (h : Heap V) : FactoryKernel.gaussian1D E ex c0 sigma width h = .throw h := by
  unfold FactoryKernel.gaussian1D
  by_cases q : width ≤ 0
  · rw [if_pos q]
    refine M.bind_throw (M.bind_throw ?_)
    unfold FactoryKernel.radiusForSigma
    rw [if_pos hs]; rfl
  · rw [if_neg q, if_pos hs]
    refine M.bind_throw (M.bind_throw ?_)
    have : width = 1 := by omega
    subst this
    unfold FactoryKernel.sigmaForRadius
    rw [if_pos (by simp)]; rfl

/-- The kernel with the real exponential: all the hypotheses on `ex` and `c0` hold. -/
theorem C45_gaussian1D_real (E : GrowArray.Elem ℝ) (hz : E.ms E.zero = E.zero) {sigma : ℝ} (hs : 0 < sigma) {w : Nat} (hw : 0 < w)
    (hw2 : w < 2147483648) (h : Heap V) :
    ∃ k c, FactoryKernel.gaussian1D E Real.exp 2.5066282746310 sigma w h = .ok k h ∧ k.Is1D w (w / 2) c ∧
      IsGaussian Real.exp sigma w c ∧ k.sumK h = .ok 1 h :=
  C45_gaussian1D E hz (by norm_num) Real.exp_pos (fun _ _ hxy => Real.exp_lt_exp.mpr hxy) hs hw hw2 h

example (h : Heap V) : ∃ k c, FactoryKernel.gaussian1D (⟨id, 8, 0, fun _ => 7⟩ : GrowArray.Elem ℝ) Real.exp 2.5066282746310 (3/2) (5 : Nat) h = .ok k h ∧
    k.Is1D 5 2 c ∧ IsGaussian Real.exp (3/2) 5 c ∧ k.sumK h = .ok 1 h :=
  C45_gaussian1D_real _ rfl (by norm_num) (by decide) (by decide) h

/-- `gaussian2D(sigma,width)` is the outer product of `gaussian1D(sigma,width)` with itself (so its sum is one), for every
positive width whose square is below 2^32.  MISSING for the full property: a width of 0 or less, see `C45_gaussian2D_refuted`. -/
theorem C45_gaussian2D_partial (E : GrowArray.Elem K) (hz : E.ms E.zero = E.zero) {ex : K → K} {c0 sigma : K} {w : Nat} (hw : 0 < w)
    (hw2 : w * w < P32) {h : Heap V} {seed : Kernel K} {s : Nat → K}
    (e1 : FactoryKernel.gaussian1D E ex c0 sigma w h = .ok seed h) (hseed : seed.Is1D w (w / 2) s) (hs1 : sumF w s = 1) :
    ∃ k, FactoryKernel.gaussian2D E ex c0 sigma w h = .ok k h ∧ k.Is2D w (w / 2) (fun x y => s x * s y) ∧
      sumF w (fun y => sumF w (fun x => s x * s y)) = 1 := by
  have hwl : w < P32 := Nat.lt_of_le_of_lt (Nat.le_mul_of_pos_left w hw) hw2
  have e3 : (w : Int).tdiv 2 = ((w / 2 : Nat) : Int) := by
    rw [Int.tdiv_eq_ediv_of_nonneg (by omega)]; rfl
  obtain ⟨k0, e0, hk0⟩ := (C42_new2D_partial E hz hw2 (w/2) h).2 (by omega)
  obtain ⟨k1, e2, hk1⟩ := fill2D hk0 (v := fun x y => s x * s y) (h := h) (px := fun i j => i) (py := fun i j => j)
    (body := fun i j k => do
      let a ← Kernel1D.at' seed i
      let b ← Kernel1D.at' seed j
      Kernel2D.setAt k i j (a * b)) (fun i j hi hj => ⟨hi, hj⟩) (fun x y hx hy => ⟨x, y, hx, hy, rfl, rfl⟩) (by
    intro i j k1 hi hj hkw hks
    rw [M.bind_ok (at1D hseed hi h), M.bind_ok (at1D hseed hj h)]
    have := idx2_lt hi hj
    unfold Kernel2D.setAt
    rw [hkw, hks, wrap32_of_lt (by omega), if_neg (by omega), if_neg (by omega)])
  have hsum : sumF w (fun y => sumF w (fun x => s x * s y)) = 1 := by
    have : ∀ y, sumF w (fun x => s x * s y) = s y := by
      intro y
      have := sumF_mul w s (s y)
      rw [hs1, mul_one] at this
      exact (sumF_congr (fun x _ => mul_comm _ _)).trans this
    rw [sumF_congr (fun y _ => this y), hs1]
  obtain ⟨k2, e4, -, hk2, -⟩ := C44_normalize2D_partial hk1 hw (by rw [hsum]; exact one_ne_zero) h
  refine ⟨k2, ?_, hk2 hsum, hsum⟩
  unfold FactoryKernel.gaussian2D
  rw [e3, toU32_of_nonneg (by omega) (by omega), toU32_of_nonneg (by omega) (by omega), Int.toNat_natCast, Int.toNat_natCast]
  exact (M.bind_ok e1).trans ((M.bind_ok e0).trans ((M.bind_ok e2).trans e4))

example (h : Heap V) : ∃ (s : Nat → ℝ) (k : Kernel ℝ), FactoryKernel.gaussian2D (⟨id, 8, 0, fun _ => 7⟩ : GrowArray.Elem ℝ) Real.exp
    2.5066282746310 (3/2) (5 : Nat) h = .ok k h ∧ k.Is2D 5 2 (fun x y => s x * s y) := by
  obtain ⟨seed, s, e, hs, hg, -⟩ := C45_gaussian1D_real (⟨id, 8, 0, fun _ => 7⟩ : GrowArray.Elem ℝ) rfl (sigma := 3/2) (by norm_num) (w := 5) (by decide) (by decide) h
  obtain ⟨k, e1, h1, -⟩ := C45_gaussian2D_partial _ rfl (by decide) (by decide) e hs hg.sum
  exact ⟨s, k, e1, h1⟩

/-- Hence `gaussian2D(sigma,width)` with both parameters positive is the outer product of a Gaussian with itself: positive,
symmetric in both directions, and its coefficients sum to one. -/
theorem C45_gaussian2D (E : GrowArray.Elem K) (hz : E.ms E.zero = E.zero) {ex : K → K} {c0 : K} (hc0 : 0 < c0)
    (hex : ∀ x, 0 < ex x) (hmono : ∀ x y, x < y → ex x < ex y) {sigma : K} (hs : 0 < sigma) {w : Nat} (hw : 0 < w)
    (hw2 : w * w < P32) (h : Heap V) :
    ∃ k s, FactoryKernel.gaussian2D E ex c0 sigma w h = .ok k h ∧ k.Is2D w (w / 2) (fun x y => s x * s y) ∧
      IsGaussian ex sigma w s ∧ sumF w (fun y => sumF w (fun x => s x * s y)) = 1 := by
  have hw3 : w < 2147483648 := by
    by_contra hge
    have := Nat.mul_le_mul (Nat.not_lt.mp hge) (Nat.not_lt.mp hge)
    unfold P32 at hw2; omega
  obtain ⟨seed, s, e, hk, hg, -⟩ := C45_gaussian1D E hz hc0 hex hmono hs hw hw3 h
  obtain ⟨k, e1, h1, h2⟩ := C45_gaussian2D_partial E hz hw hw2 e hk hg.sum
  exact ⟨k, s, e1, h1, hg, h2⟩

/-- `gaussian2D(sigma,0)` does not choose a width from sigma as `gaussian1D(sigma,0)` does: it throws, for every sigma for which
the chosen width is representable. -/
theorem C45_gaussian2D_refuted (E : GrowArray.Elem K) (hz : E.ms E.zero = E.zero) {ex : K → K} {c0 : K} (hc0 : 0 < c0)
    (hex : ∀ x, 0 < ex x) (hmono : ∀ x y, x < y → ex x < ex y) {sigma : K} (hs : 0 < sigma)
    (hr2 : 2 * ⌈(5 * sigma - 1) / 2⌉ + 1 < 2147483648) (h : Heap V) :
    (∃ k, FactoryKernel.gaussian1D E ex c0 sigma 0 h = .ok k h) ∧ FactoryKernel.gaussian2D E ex c0 sigma 0 h = .throw h := by
  obtain ⟨-, k, c, e, -⟩ := C45_gaussian1D_sigma E hz hc0 hex hmono hs (width := 0) (le_refl 0) rfl hr2 h
  refine ⟨⟨k, e⟩, ?_⟩
  unfold FactoryKernel.gaussian2D
  refine (M.bind_ok e).trans (M.bind_throw ?_)
  exact (C42_new2D_partial E hz (w := 0) (by decide) 0 h).1 (Nat.le_refl 0)

example (h : Heap V) : (∃ k, FactoryKernel.gaussian1D (⟨id, 8, 0, fun _ => 7⟩ : GrowArray.Elem ℝ) Real.exp 2.5066282746310 1 0 h = .ok k h) ∧
    FactoryKernel.gaussian2D (⟨id, 8, 0, fun _ => 7⟩ : GrowArray.Elem ℝ) Real.exp 2.5066282746310 1 0 h = .throw h :=
  C45_gaussian2D_refuted _ rfl (by norm_num) Real.exp_pos (fun _ _ hxy => Real.exp_lt_exp.mpr hxy) one_pos (by
    have : ⌈((5:ℝ) * 1 - 1) / 2⌉ = 2 := by rw [Int.ceil_eq_iff]; norm_num
    rw [this]; decide) h

/-! ## C46 -/

theorem truncK_mono {a b : K} (h : a ≤ b) : truncK a ≤ truncK b := by
  unfold truncK
  by_cases ha : 0 ≤ a
  · rw [if_pos ha, if_pos (le_trans ha h)]
    exact Int.floor_le_floor h
  · rw [if_neg ha]
    have h0 : ⌈a⌉ ≤ 0 := by rw [Int.ceil_le]; push_cast; exact le_of_lt (not_le.mp ha)
    by_cases hb : 0 ≤ b
    · rw [if_pos hb]
      exact le_trans h0 (Int.floor_nonneg.mpr hb)
    · rw [if_neg hb]
      exact Int.ceil_le_ceil h

theorem truncK_neg (a : K) : truncK (-a) = -truncK a := by
  unfold truncK
  by_cases ha : 0 ≤ a
  · rw [if_pos ha]
    by_cases hb : 0 ≤ -a
    · have : a = 0 := by linarith
      subst this; simp
    · rw [if_neg hb, Int.ceil_neg]
  · rw [if_neg ha, if_pos (by linarith), Int.floor_neg]

theorem truncK_int (n : Int) : truncK (n : K) = n := by
  unfold truncK; split <;> simp

/-- Truncation removes less than one, towards zero. -/
theorem truncK_abs (a : K) : |(truncK a : K)| ≤ |a| ∧ |a| < |(truncK a : K)| + 1 := by
  have pos : ∀ b : K, 0 ≤ b → |(truncK b : K)| ≤ |b| ∧ |b| < |(truncK b : K)| + 1 := by
    intro b hb
    have h0 : (0 : K) ≤ (⌊b⌋ : K) := by exact_mod_cast Int.floor_nonneg.mpr hb
    unfold truncK
    rw [if_pos hb, abs_of_nonneg hb, abs_of_nonneg h0]
    exact ⟨Int.floor_le b, Int.lt_floor_add_one b⟩
  rcases le_total 0 a with ha | ha
  · exact pos a ha
  · have := pos (-a) (by linarith)
    rw [truncK_neg] at this
    push_cast at this
    rwa [abs_neg, abs_neg] at this

/-- Integer coefficients `d` that keep the sign, order and symmetry of `c`, with magnitude at most `1/minFrac` (so 100), where a
largest coefficient is not lost.  `n` is the number of coefficients. -/
structure IsIntKernel (n : Nat) (c : Nat → K) (d : Nat → Int) (N : Nat) : Prop where
  bound : ∀ i, i < n → |d i| ≤ N
  nonneg : ∀ i, i < n → 0 ≤ c i → 0 ≤ d i
  nonpos : ∀ i, i < n → c i ≤ 0 → d i ≤ 0
  order : ∀ i j, i < n → j < n → c i ≤ c j → d i ≤ d j
  opposite : ∀ i j, i < n → j < n → c i = -c j → d i = -d j
  largest : ∀ i, i < n → (∀ j, j < n → |c j| ≤ |c i|) → d i ≠ 0
  /-- the quotients by the smallest magnitude, or by `minFrac` of the largest if that is more, rounded towards zero -/
  quotient : ∃ q mx mn, IsAbsMax n c mx ∧ IsAbsMin n c mn ∧ q = max mn (mx / (N : K)) ∧
    ∀ i, i < n → |(d i : K)| * q ≤ |c i| ∧ |c i| < (|(d i : K)| + 1) * q

/-- The quantum is positive, at most the largest magnitude and at least `minFrac` times it. -/
theorem quantum_run {k : Kernel K} {n : Nat} {c : Nat → K} (hs : k.data.size = n)
    (hc : ∀ i, i < n → k.data.data[i]? = some (c i)) {f : K} (hf : 0 < f) (hf1 : f ≤ 1) {i0 : Nat} (hi0 : i0 < n) (h0 : c i0 ≠ 0)
    (h : Heap V) :
    ∃ q mx, FactoryKernel.quantum k f h = .ok q h ∧ IsAbsMax n c mx ∧ 0 < mx ∧ 0 < q ∧ q ≤ mx ∧ mx * f ≤ q ∧
      ∃ mn, IsAbsMin n c mn ∧ q = max mn (mx * f) := by
  have hn : 0 < n := by omega
  obtain ⟨mx, e1, hmx⟩ := absMax_run hs hn hc h
  obtain ⟨mn, e2, hmn⟩ := absMin_run hs hn hc h
  have hpos : 0 < mx := lt_of_lt_of_le (abs_pos.mpr h0) (hmx.2 i0 hi0)
  refine ⟨max mn (mx * f), mx, ?_, hmx, hpos, lt_of_lt_of_le (mul_pos hpos hf) (le_max_right _ _), ?_, le_max_right _ _,
    mn, hmn, rfl⟩
  · unfold FactoryKernel.quantum
    exact (M.bind_ok e1).trans ((M.bind_ok e2).trans rfl)
  · refine max_le ?_ ?_
    · obtain ⟨i, hi, e⟩ := hmx.1
      rw [← e]; exact hmn.2 i hi
    · nlinarith

theorem isIntKernel {n : Nat} {c : Nat → K} {q mx : K} {N : Nat} (hN : 0 < N) (hmx : IsAbsMax n c mx) (hpos : 0 < mx) (hq : 0 < q)
    (hq1 : q ≤ mx) (hq2 : mx * (1 / (N : K)) ≤ q) (hmn : ∃ mn, IsAbsMin n c mn ∧ q = max mn (mx * (1 / (N : K)))) :
    IsIntKernel n c (fun i => truncK (c i / q)) N := by
  have hNK : (0 : K) < N := by exact_mod_cast hN
  refine ⟨fun i hi => ?_, fun i hi h0 => ?_, fun i hi h0 => ?_, fun i j hi hj hij => ?_, fun i j hi hj hij => ?_, fun i hi hbig => ?_, ?_⟩
  · have hle : |c i| ≤ N * q := by
      refine le_trans (hmx.2 i hi) ?_
      have : mx * (1 / (N:K)) * N ≤ q * N := mul_le_mul_of_nonneg_right hq2 (le_of_lt hNK)
      rw [mul_assoc, one_div, inv_mul_cancel₀ (ne_of_gt hNK), mul_one] at this
      linarith [mul_comm q (N:K)]
    obtain ⟨h1, h2⟩ := abs_le.mp hle
    rw [abs_le]
    constructor
    · have := truncK_mono (a := ((-(N:Int) : Int) : K)) (b := c i / q) (by
        rw [le_div_iff₀ hq]; push_cast; linarith)
      rwa [truncK_int] at this
    · have := truncK_mono (b := (((N:Int) : Int) : K)) (a := c i / q) (by
        rw [div_le_iff₀ hq]; push_cast; linarith)
      rwa [truncK_int] at this
  · have := truncK_mono (a := ((0 : Int) : K)) (b := c i / q) (by push_cast; positivity)
    rwa [truncK_int] at this
  · have := truncK_mono (b := ((0 : Int) : K)) (a := c i / q) (by push_cast; exact div_nonpos_of_nonpos_of_nonneg h0 (le_of_lt hq))
    rwa [truncK_int] at this
  · exact truncK_mono (div_le_div_of_nonneg_right hij (le_of_lt hq))
  · show truncK (c i / q) = -truncK (c j / q)
    rw [hij, neg_div, truncK_neg]
  · have habs : mx ≤ |c i| := by
      obtain ⟨i1, hi1, e⟩ := hmx.1
      rw [← e]; exact hbig i1 hi1
    show truncK (c i / q) ≠ 0
    rcases le_total 0 (c i) with h0 | h0
    · rw [abs_of_nonneg h0] at habs
      have := truncK_mono (a := ((1 : Int) : K)) (b := c i / q) (by rw [le_div_iff₀ hq]; push_cast; linarith)
      rw [truncK_int] at this
      omega
    · rw [abs_of_nonpos h0] at habs
      have := truncK_mono (b := ((-1 : Int) : K)) (a := c i / q) (by rw [div_le_iff₀ hq]; push_cast; linarith)
      rw [truncK_int] at this
      omega
  · obtain ⟨mn, h1, h2⟩ := hmn
    refine ⟨q, mx, mn, hmx, h1, by rw [h2, mul_one_div], fun i _ => ?_⟩
    have e := truncK_abs (c i / q)
    rw [abs_div, abs_of_pos hq] at e
    rw [le_div_iff₀ hq, div_lt_iff₀ hq] at e
    exact e

theorem toIntCoef_run {n : Nat} {c : Nat → K} {q : K} {t : IntTy} {N : Nat} (hd : IsIntKernel n c (fun i => truncK (c i / q)) N)
    (hhi : (N : Int) ≤ t.hi) (hlo0 : t.lo ≤ 0) (hlo : t.lo ≤ -(N : Int) ∨ ∀ i, i < n → 0 ≤ c i) {i : Nat} (hi : i < n) (h : Heap V) :
    (M.toInt t (c i / q) : M V Int) h = .ok (truncK (c i / q)) h := by
  unfold M.toInt
  obtain ⟨h1, h2⟩ := abs_le.mp (hd.bound i hi)
  rw [if_pos]
  · rfl
  · refine ⟨?_, by omega⟩
    rcases hlo with hlo | hlo
    · omega
    · have := hd.nonneg i hi (hlo i hi)
      omega

/-- `float_to_int` on a 1D kernel with a non-zero coefficient, `minFrac = 1/N`.  The target type must hold `N` (and `-N` if a
coefficient is negative), which for `N = 100` every integer type does. -/
theorem C46_convert1D (t : IntTy) (junk : Nat → Int) {k : Kernel K} {w o : Nat} {c : Nat → K} (hk : k.Is1D w o c) (ho : o < w)
    {N : Nat} (hN : 0 < N) {i0 : Nat} (hi0 : i0 < w) (h0 : c i0 ≠ 0)
    (hhi : (N : Int) ≤ t.hi) (hlo0 : t.lo ≤ 0) (hlo : t.lo ≤ -(N : Int) ∨ ∀ i, i < w → 0 ≤ c i) (h : Heap V) :
    ∃ k' d, FactoryKernel.floatToInt1D (intElem t junk) t k (1 / (N : K)) h = .ok k' h ∧ k'.Is1D w o d ∧ IsIntKernel w c d N := by
  have hNK : (1 : K) ≤ N := by exact_mod_cast hN
  obtain ⟨q, mx, e1, hmx, hpos, hq, hq1, hq2, hmn⟩ := quantum_run hk.size hk.coef (f := 1 / (N : K)) (by positivity)
    (by rw [div_le_one (by positivity)]; exact hNK) hi0 h0 h
  have hd := isIntKernel hN hmx hpos hq hq1 hq2 hmn
  obtain ⟨k0, e0, hk0⟩ := new1D_run (intElem t junk) (memsetInt_zero t) ho h
  obtain ⟨k1, e2, hk1⟩ := fill1D hk0 (v := fun i => truncK (c i / q)) (h := h) (body := fun i k1 => do
    let v ← k.get i
    let n ← if q = 0 then M.ub else M.toInt t (v / q)
    k1.put i n) (fun i k1 hi _ _ => by
      rw [M.bind_ok (get1D hk hi h), if_neg (ne_of_gt hq), M.bind_ok (toIntCoef_run hd hhi hlo0 hlo hi h)])
  refine ⟨k1, _, ?_, hk1, hd⟩
  unfold FactoryKernel.floatToInt1D
  rw [hk.width, hk.offset]
  exact (M.bind_ok e0).trans ((M.bind_ok e1).trans e2)

/-- The same for 2D kernels (coefficients numbered row by row). -/
theorem C46_convert2D (t : IntTy) (junk : Nat → Int) {k : Kernel K} {w o : Nat} {c : Nat → Nat → K} (hk : k.Is2D w o c) (ho : o < w)
    (hw : w * w < P32) {N : Nat} (hN : 0 < N) {x0 y0 : Nat} (hx0 : x0 < w) (hy0 : y0 < w) (h0 : c x0 y0 ≠ 0)
    (hhi : (N : Int) ≤ t.hi) (hlo0 : t.lo ≤ 0) (hlo : t.lo ≤ -(N : Int) ∨ ∀ x y, x < w → y < w → 0 ≤ c x y) (h : Heap V) :
    ∃ k' d, FactoryKernel.floatToInt2D (intElem t junk) t k (1 / (N : K)) h = .ok k' h ∧ k'.Is2D w o d ∧
      IsIntKernel (w * w) (fun n => c (n % w) (n / w)) (fun n => d (n % w) (n / w)) N := by
  have hw0 : 0 < w := by omega
  have hNK : (1 : K) ≤ N := by exact_mod_cast hN
  have hc : ∀ n, n < w * w → k.data.data[n]? = some (c (n % w) (n / w)) := by
    intro n hn
    have := hk.coef (n % w) (n / w) (Nat.mod_lt _ hw0) (Nat.div_lt_of_lt_mul hn)
    rwa [Nat.mul_comm, Nat.div_add_mod] at this
  have hflat : ∀ x y, x < w → (y * w + x) % w = x ∧ (y * w + x) / w = y := by
    intro x y hx
    rw [Nat.mul_comm, Nat.mul_add_mod, Nat.mod_eq_of_lt hx, Nat.mul_add_div (by omega), Nat.div_eq_of_lt hx, Nat.add_zero]
    exact ⟨rfl, rfl⟩
  obtain ⟨q, mx, e1, hmx, hpos, hq, hq1, hq2, hmn⟩ := quantum_run (c := fun n => c (n % w) (n / w)) hk.size hc (f := 1 / (N : K)) (by positivity)
    (by rw [div_le_one (by positivity)]; exact hNK) (i0 := y0 * w + x0) (idx2_lt hx0 hy0) (by
      beta_reduce
      rw [(hflat x0 y0 hx0).1, (hflat x0 y0 hx0).2]; exact h0) h
  have hd := isIntKernel hN hmx hpos hq hq1 hq2 hmn
  obtain ⟨k0, e0, hk0⟩ := new2D_run (intElem t junk) (memsetInt_zero t) ho hw h
  obtain ⟨k1, e2, hk1⟩ := fill2D hk0 (v := fun x y => truncK (c x y / q)) (h := h) (px := fun i j => j) (py := fun i j => i)
    (body := fun i j k1 => do
      let v ← Kernel2D.at' k j i
      let n ← if q = 0 then M.ub else M.toInt t (v / q)
      Kernel2D.setAt k1 j i n) (fun i j hi hj => ⟨hj, hi⟩) (fun x y hx hy => ⟨y, x, hy, hx, rfl, rfl⟩) (by
    intro i j k1 hi hj hkw hks
    rw [M.bind_ok (at2D hk hw hj hi h)]
    have hcv := toIntCoef_run hd hhi hlo0 (hlo.imp id (fun q n hn => q _ _ (Nat.mod_lt _ hw0) (Nat.div_lt_of_lt_mul hn))) (idx2_lt hj hi) h
    beta_reduce at hcv
    rw [(hflat j i hj).1, (hflat j i hj).2] at hcv
    rw [if_neg (ne_of_gt hq), M.bind_ok hcv]
    have := idx2_lt hj hi
    unfold Kernel2D.setAt
    rw [hkw, hks, wrap32_of_lt (by omega)]
    beta_reduce
    rw [if_neg (by omega), if_neg (by omega)])
  refine ⟨k1, _, ?_, hk1, hd⟩
  unfold FactoryKernel.floatToInt2D
  rw [hk.width, hk.offset]
  exact (M.bind_ok e0).trans ((M.bind_ok e1).trans e2)

/-- Every integer type of the library can hold coefficients up to 100; signed ones also -100. -/
theorem C46_types : ∀ t ∈ [U8, U16, S16, U32, S32, S64], (100 : Int) ≤ t.hi ∧ t.lo ≤ 0 ∧ (t.signed = true → t.lo ≤ -100) := by decide

/-- The integer kernel made from the Gaussian `c`: coefficients between 0 and 100, symmetric, not increasing away from the
middle, and the middle is not zero. -/
theorem C46_gaussianInt_of (E : GrowArray.Elem K) {ex : K → K} {c0 : K}
    (hex : ∀ x, 0 < ex x) {sigma sigma' : K} {width : Int} {w : Nat} (hw : 0 < w) {c : Nat → K} {kf : Kernel K}
    (t : IntTy) (ht : t ∈ [U8, U16, S16, U32, S32, S64]) (junk : Nat → Int) {h : Heap V}
    (e1 : FactoryKernel.gaussian1D E ex c0 sigma width h = .ok kf h) (hk : kf.Is1D w (w / 2) c) (hg : IsGaussian ex sigma' w c) :
    ∃ k d, FactoryKernel.gaussian1DInt E (intElem t junk) t ex c0 sigma width h = .ok k h ∧ k.Is1D w (w / 2) d ∧
      IsIntKernel w c d 100 ∧
      (∀ i, i < w → 0 ≤ d i ∧ d i ≤ 100) ∧ (∀ i, i < w → d (w - 1 - i) = d i) ∧
      (∀ i j, i < w → j < w → |fromMiddle K w i| < |fromMiddle K w j| → d j ≤ d i) ∧ 0 < d (w / 2) := by
  obtain ⟨t1, t2, -⟩ := C46_types t ht
  obtain ⟨k, d, e2, hk2, hd⟩ := C46_convert1D t junk hk (by omega) (N := 100) (by omega) hw (ne_of_gt (hg.pos 0 hw))
    (by exact_mod_cast t1) t2 (Or.inr (fun i hi => le_of_lt (hg.pos i hi))) h
  have hN : ((100 : Nat) : K) = 100 := by norm_num
  rw [hN] at e2
  refine ⟨k, d, (M.bind_ok e1).trans e2, hk2, hd, fun i hi => ?_, fun i hi => ?_, fun i j hi hj hij => ?_, ?_⟩
  · exact ⟨hd.nonneg i hi (le_of_lt (hg.pos i hi)), by
      have := (abs_le.mp (hd.bound i hi)).2
      exact_mod_cast this⟩
  · have := hg.symm i hi
    exact le_antisymm (hd.order _ _ (by omega) hi (le_of_eq this)) (hd.order _ _ hi (by omega) (ge_of_eq this))
  · exact hd.order j i hj hi (le_of_lt (hg.decreasing i j hi hj hij))
  · have hmid : w / 2 < w := by omega
    have hmax : ∀ j, j < w → |c j| ≤ |c (w / 2)| := by
      intro j hj
      rw [abs_of_pos (hg.pos j hj), abs_of_pos (hg.pos _ hmid)]
      rcases lt_trichotomy |fromMiddle K w (w/2)| |fromMiddle K w j| with q | q | q
      · exact le_of_lt (hg.decreasing _ _ hmid hj q)
      · have r := hg.ratio (w/2) j hmid hj
        rw [← abs_mul_abs_self (fromMiddle K w j), ← abs_mul_abs_self (fromMiddle K w (w/2)), q] at r
        exact le_of_eq (mul_right_cancel₀ (ne_of_gt (hex _)) r).symm
      · exfalso
        -- no index is closer to the middle than w/2
        have hm : |fromMiddle K w (w/2)| ≤ 1/2 := by
          unfold fromMiddle
          have h1 : (w : K) - 1 ≤ 2 * ((w / 2 : Nat) : K) := by
            have : w ≤ 2 * (w / 2) + 1 := by omega
            have : (w : K) ≤ 2 * ((w / 2 : Nat) : K) + 1 := by exact_mod_cast this
            linarith
          have h2 : 2 * ((w / 2 : Nat) : K) ≤ w := by
            have : 2 * (w / 2) ≤ w := by omega
            exact_mod_cast this
          rw [abs_le]; constructor <;> linarith
        have hm0 : |fromMiddle K w (w/2)| = 1/2 ∨ fromMiddle K w (w/2) = 0 := by
          unfold fromMiddle
          have hd2 : w = 2 * (w / 2) + w % 2 := (Nat.div_add_mod w 2).symm
          have hmm : w % 2 = 0 ∨ w % 2 = 1 := by omega
          rcases hmm with hmm | hmm
          · left
            have : (w : K) = 2 * ((w / 2 : Nat) : K) := by
              conv_lhs => rw [hd2, hmm]
              push_cast; ring
            have e : ((w / 2 : Nat) : K) - ((w : K) - 1) / 2 = 1/2 := by rw [this]; ring
            rw [e]; norm_num
          · right
            have : (w : K) = 2 * ((w / 2 : Nat) : K) + 1 := by
              conv_lhs => rw [hd2, hmm]
              push_cast; ring
            rw [this]; ring
        rcases hm0 with q2 | q2
        · -- 2*j - (w-1) is an odd integer
          rw [q2] at q
          have hodd : w % 2 = 0 := by
            by_contra hc
            have hmm : w % 2 = 1 := by omega
            have hd2 : w = 2 * (w / 2) + w % 2 := (Nat.div_add_mod w 2).symm
            have : (w : K) = 2 * ((w / 2 : Nat) : K) + 1 := by
              conv_lhs => rw [hd2, hmm]
              push_cast; ring
            unfold fromMiddle at q2
            have e : ((w / 2 : Nat) : K) - ((w : K) - 1) / 2 = 0 := by rw [this]; ring
            rw [e, abs_zero] at q2
            norm_num at q2
          unfold fromMiddle at q
          have hz2 : |(2 * (j : Int) - ((w : Int) - 1))| < 1 := by
            have : |((2 * (j : Int) - ((w : Int) - 1) : Int) : K)| < 1 := by
              have e : ((2 * (j : Int) - ((w : Int) - 1) : Int) : K) = 2 * ((j : K) - ((w : K) - 1) / 2) := by push_cast; ring
              rw [e, abs_mul, abs_two]; linarith
            exact_mod_cast this
          rw [Int.abs_lt_one_iff] at hz2
          omega
        · rw [q2, abs_zero] at q
          exact absurd (abs_nonneg (fromMiddle K w j)) (not_le.mpr q)
    have h1 := hd.largest _ hmid hmax
    have h2 := hd.nonneg _ hmid (le_of_lt (hg.pos _ hmid))
    omega

/-- The integer Gaussian kernel: coefficients between 0 and 100, symmetric, not increasing away from the middle, and the
middle is not zero. -/
theorem C46_gaussianInt (E : GrowArray.Elem K) (hz : E.ms E.zero = E.zero) {ex : K → K} {c0 : K} (hc0 : 0 < c0)
    (hex : ∀ x, 0 < ex x) (hmono : ∀ x y, x < y → ex x < ex y) {sigma : K} (hs : 0 < sigma) {w : Nat} (hw : 0 < w)
    (hw2 : w < 2147483648) (t : IntTy) (ht : t ∈ [U8, U16, S16, U32, S32, S64]) (junk : Nat → Int) (h : Heap V) :
    ∃ k d, FactoryKernel.gaussian1DInt E (intElem t junk) t ex c0 sigma w h = .ok k h ∧ k.Is1D w (w / 2) d ∧
      (∀ i, i < w → 0 ≤ d i ∧ d i ≤ 100) ∧ (∀ i, i < w → d (w - 1 - i) = d i) ∧
      (∀ i j, i < w → j < w → |fromMiddle K w i| < |fromMiddle K w j| → d j ≤ d i) ∧ 0 < d (w / 2) := by
  obtain ⟨kf, c, e1, hk, hg, -⟩ := C45_gaussian1D E hz hc0 hex hmono hs hw hw2 h
  obtain ⟨k, d, e, hd, -, r⟩ := C46_gaussianInt_of E hex hw t ht junk e1 hk hg
  exact ⟨k, d, e, hd, r⟩

example (h : Heap V) : ∃ k d, FactoryKernel.gaussian1DInt (⟨id, 8, 0, fun _ => 7⟩ : GrowArray.Elem ℝ) (intElem S32 (fun _ => 3)) S32 Real.exp
    2.5066282746310 (3/2) (5 : Nat) h = .ok k h ∧ k.Is1D 5 2 d ∧ (∀ i, i < 5 → 0 ≤ d i ∧ d i ≤ 100) ∧ (∀ i, i < 5 → d (5 - 1 - i) = d i) ∧
    (∀ i j, i < 5 → j < 5 → |fromMiddle ℝ 5 i| < |fromMiddle ℝ 5 j| → d j ≤ d i) ∧ 0 < d (5 / 2) :=
  C46_gaussianInt _ rfl (by norm_num) Real.exp_pos (fun _ _ hxy => Real.exp_lt_exp.mpr hxy) (by norm_num) (by decide) (by decide) S32
    (by decide) _ h

/-- The integer kernel made from the 2D Gaussian `s x * s y`: coefficients between 0 and 100, equal where the distances from the
middle are, and the quotients described by `IsIntKernel`. -/
theorem C46_gaussian2DInt (E : GrowArray.Elem K) (hz : E.ms E.zero = E.zero) {ex : K → K} {c0 : K} (hc0 : 0 < c0)
    (hex : ∀ x, 0 < ex x) (hmono : ∀ x y, x < y → ex x < ex y) {sigma : K} (hs : 0 < sigma) {w : Nat} (hw : 0 < w)
    (hw2 : w * w < P32) (hw3 : w < 2147483648) (t : IntTy) (ht : t ∈ [U8, U16, S16, U32, S32, S64]) (junk : Nat → Int) (h : Heap V) :
    ∃ k s d, FactoryKernel.gaussian2DInt E (intElem t junk) t ex c0 sigma w h = .ok k h ∧ k.Is2D w (w / 2) d ∧
      IsGaussian ex sigma w s ∧
      IsIntKernel (w * w) (fun n => s (n % w) * s (n / w)) (fun n => d (n % w) (n / w)) 100 ∧
      (∀ x y, x < w → y < w → 0 ≤ d x y ∧ d x y ≤ 100) ∧
      (∀ x y, x < w → y < w → d y x = d x y ∧ d (w - 1 - x) y = d x y ∧ d x (w - 1 - y) = d x y) := by
  obtain ⟨t1, t2, -⟩ := C46_types t ht
  obtain ⟨seed, s, e1, hk, hg, -⟩ := C45_gaussian1D E hz hc0 hex hmono hs hw hw3 h
  obtain ⟨k2, e2, hk2, -⟩ := C45_gaussian2D_partial E hz hw hw2 e1 hk hg.sum
  have hpos : ∀ x y, x < w → y < w → 0 < s x * s y := fun x y hx hy => mul_pos (hg.pos x hx) (hg.pos y hy)
  obtain ⟨k, d, e3, hk3, hd⟩ := C46_convert2D t junk hk2 (by omega) hw2 (N := 100) (by omega) hw hw (ne_of_gt (hpos 0 0 hw hw))
    (by exact_mod_cast t1) t2 (Or.inr (fun x y hx hy => le_of_lt (hpos x y hx hy))) h
  have hN : ((100 : Nat) : K) = 100 := by norm_num
  rw [hN] at e3
  have hflat : ∀ x y, x < w → (y * w + x) % w = x ∧ (y * w + x) / w = y := by
    intro x y hx
    rw [Nat.mul_comm, Nat.mul_add_mod, Nat.mod_eq_of_lt hx, Nat.mul_add_div (by omega), Nat.div_eq_of_lt hx, Nat.add_zero]
    exact ⟨rfl, rfl⟩
  -- equal coefficients are converted to equal ones
  have heq : ∀ x y x' y', x < w → y < w → x' < w → y' < w → s x * s y = s x' * s y' → d x y = d x' y' := by
    intro x y x' y' hx hy hx' hy' e
    have h1 := hd.order _ _ (idx2_lt hx hy) (idx2_lt hx' hy')
    have h2 := hd.order _ _ (idx2_lt hx' hy') (idx2_lt hx hy)
    simp only [(hflat x y hx).1, (hflat x y hx).2, (hflat x' y' hx').1, (hflat x' y' hx').2] at h1 h2
    exact le_antisymm (h1 (le_of_eq e)) (h2 (le_of_eq e.symm))
  refine ⟨k, s, d, (M.bind_ok e2).trans e3, hk3, hg, hd, fun x y hx hy => ?_, fun x y hx hy => ⟨?_, ?_, ?_⟩⟩
  · have h1 := hd.nonneg _ (idx2_lt hx hy)
    have h2 := (abs_le.mp (hd.bound _ (idx2_lt hx hy))).2
    simp only [(hflat x y hx).1, (hflat x y hx).2] at h1 h2
    exact ⟨h1 (le_of_lt (hpos x y hx hy)), by exact_mod_cast h2⟩
  · exact heq _ _ _ _ hy hx hx hy (mul_comm _ _)
  · exact heq _ _ _ _ (by omega) hy hx hy (by rw [hg.symm x hx])
  · exact heq _ _ _ _ hx (by omega) hx hy (by rw [hg.symm y hy])

example (h : Heap V) : ∃ k s d, FactoryKernel.gaussian2DInt (⟨id, 8, 0, fun _ => 7⟩ : GrowArray.Elem ℝ) (intElem U8 (fun _ => 3)) U8 Real.exp
    2.5066282746310 (3/2) (5 : Nat) h = .ok k h ∧ k.Is2D 5 2 d ∧ IsGaussian Real.exp (3/2) 5 s := by
  obtain ⟨k, s, d, e, h1, h2, -⟩ := C46_gaussian2DInt (⟨id, 8, 0, fun _ => 7⟩ : GrowArray.Elem ℝ) rfl (c0 := 2.5066282746310) (by norm_num)
    Real.exp_pos (fun _ _ hxy => Real.exp_lt_exp.mpr hxy) (sigma := 3/2) (by norm_num) (w := 5) (by decide) (by decide)
    (by decide) U8 (by decide) (fun _ => 3) h
  exact ⟨k, s, d, e, h1, h2⟩

/-- A kernel of zeros cannot be converted: the quantum is zero (division by zero). -/
theorem C46_zeros (t : IntTy) (junk : Nat → Int) {k : Kernel K} {w o : Nat} (hk : k.Is1D w o (fun _ => 0)) (ho : o < w) (f : K)
    (h : Heap V) : FactoryKernel.floatToInt1D (intElem t junk) t k f h = .ub := by
  obtain ⟨mx, e1, ⟨i1, -, e3⟩, -⟩ := absMax_run hk.size (by omega) hk.coef h
  obtain ⟨mn, e2, ⟨i2, -, e4⟩, -⟩ := absMin_run hk.size (by omega) hk.coef h
  rw [abs_zero] at e3 e4
  subst e3; subst e4
  have eq : FactoryKernel.quantum k f h = .ok 0 h := by
    unfold FactoryKernel.quantum
    refine (M.bind_ok e1).trans ((M.bind_ok e2).trans ?_)
    show Res.ok (max 0 (0 * f)) h = _
    rw [zero_mul, max_self]
  obtain ⟨k0, e0, hk0⟩ := new1D_run (intElem t junk) (memsetInt_zero t) ho h
  unfold FactoryKernel.floatToInt1D
  rw [hk.width, hk.offset]
  refine (M.bind_ok e0).trans ((M.bind_ok eq).trans ?_)
  obtain ⟨m, rfl⟩ : ∃ m, w = m + 1 := ⟨w - 1, by omega⟩
  clear hk0 e0 eq e1 e2 ho
  suffices ∀ n, n ≤ m → M.loopS (n + 1) k0 (fun i k1 => do
      let v ← k.get i
      let n ← if (0 : K) = 0 then M.ub else M.toInt t (v / 0)
      k1.put i n) h = .ub from this m (Nat.le_refl m)
  intro n hn
  induction n with
  | zero =>
    refine (M.bind_ok (a := k0) (h' := h) rfl).trans ?_
    refine (M.bind_ok (get1D hk (Nat.succ_pos m) h)).trans ?_
    rw [if_pos rfl]; rfl
  | succ n ih => exact M.bind_ub (ih (by omega))
end
end Boof
