import Verif.Proofs.Border
import Mathlib.Data.Int.ModEq
import Mathlib.Tactic.Ring
/-
C18, C19 beyond one period: what the reflecting and the wrapping border return for every coordinate.
-/
namespace Boof
variable {V : Type}

theorem toU32_cast (x : Int) : (toU32 x : Int) = x % 4294967296 := by unfold toU32 P32; omega

theorem toU32_toS32_any (n : Nat) : (toU32 (toS32 n) : Int) = (n : Int) % 4294967296 := by
  unfold toU32 toS32 P32; simp only []; split <;> omega

theorem wrap32_cast (n : Nat) : (wrap32 n : Int) = (n : Int) % 4294967296 := by unfold wrap32 P32; omega

theorem sub32_cast (a b : Nat) : (sub32 a b : Int) = ((a : Int) - b) % 4294967296 := by unfold sub32 P32; omega

theorem indexOf_cast (g : Gray) {x y : Nat} {X Y : Int} (hx : (x : Int) = X % 4294967296) (hy : (y : Int) = Y % 4294967296) :
    (g.indexOf x y : Int) = ((g.offset : Int) + Y * g.stride + X) % 4294967296 := by
  unfold Gray.indexOf
  rw [wrap32_cast, Int.natCast_add, Int.natCast_add, Int.natCast_mul, hx, hy]
  have : ((g.offset : Int) + Y % 4294967296 * g.stride + X % 4294967296) ≡ ((g.offset : Int) + Y * g.stride + X) [ZMOD 4294967296] :=
    ((Int.ModEq.refl _).add ((Int.mod_modEq _ _).mul_right _)).add (Int.mod_modEq _ _)
  exact this

/-- Reading through an index border, given what its `adjust` does to the two coordinates modulo 2^32. -/
theorem Border.get_cell {h : Heap V} {g : Gray} {b : Border V} (hb : ∀ v, b ≠ .value v) {x y X Y : Int}
    (hx : IsS32 x) (hy : IsS32 y)
    (ax : ∃ x', b.adjust x g.width h = .ok x' h ∧ (toU32 x' : Int) = X % 4294967296)
    (ay : ∃ y', b.adjust y g.height h = .ok y' h ∧ (toU32 y' : Int) = Y % 4294967296)
    (ix : 0 ≤ x → x < g.width → X = x) (iy : 0 ≤ y → y < g.height → Y = y) :
    b.get g x y h = M.rd g.buf (((g.offset : Int) + Y * g.stride + X) % 4294967296).toNat h := by
  unfold Border.get
  by_cases hc : x ≥ 0 ∧ y ≥ 0 ∧ toU32 x < g.width ∧ toU32 y < g.height
  · rw [if_pos hc]
    obtain ⟨h1, h2, h3, h4⟩ := hc
    have ux := toU32_nn h1 hx
    have uy := toU32_nn h2 hy
    have e := indexOf_cast g (toU32_cast x) (toU32_cast y)
    rw [ix h1 (by omega), iy h2 (by omega), ← e]
    unfold Gray.at'
    rw [if_neg (by omega), Int.toNat_natCast]
  · rw [if_neg hc]
    obtain ⟨x', a1, a2⟩ := ax
    obtain ⟨y', b1, b2⟩ := ay
    have hout : b.outsideGet g x y = (do
        let x ← b.adjust x g.width
        let y ← b.adjust y g.height
        g.unsafeAt (toU32 x) (toU32 y)) := by
      cases b with
      | value v => exact absurd rfl (hb v)
      | _ => rfl
    rw [hout, M.bind_ok a1, M.bind_ok b1, ← indexOf_cast g a2 b2, Int.toNat_natCast]
    rfl

theorem adjust_reflect_any {h : Heap V} {x : Int} (hx : IsS32 x) (hx0 : x ≠ -2147483648) (n : Nat) :
    ∃ x', (Border.reflect : Border V).adjust x n h = .ok x' h ∧ (toU32 x' : Int) = mirrorOnce n x % 4294967296 := by
  unfold Border.adjust mirrorOnce
  simp only []
  by_cases c1 : x < 0
  · rw [if_pos c1, if_pos c1]
    refine ⟨-x, ?_, toU32_cast _⟩
    have : S32.InRange (-x) := by unfold IntTy.InRange IntTy.lo IntTy.hi S32; unfold IsS32 at hx; simp; omega
    unfold IntTy.arith
    rw [if_pos this]; rfl
  · have ux := toU32_nn (by omega) hx
    rw [if_neg c1, if_neg c1]
    by_cases c2 : toU32 x ≥ n
    · rw [if_pos c2, if_pos (by omega)]
      refine ⟨_, rfl, ?_⟩
      rw [toU32_toS32_any, sub32_cast, sub32_cast, sub32_cast, ux]
      omega
    · rw [if_neg c2, if_neg (by omega)]
      exact ⟨x, rfl, toU32_cast x⟩

theorem adjust_wrap_any {h : Heap V} {x : Int} (hx : IsS32 x) (n : Nat) :
    ∃ x', (Border.wrap : Border V).adjust x n h = .ok x' h ∧ (toU32 x' : Int) = wrapOnce n x % 4294967296 := by
  unfold Border.adjust wrapOnce
  simp only []
  by_cases c1 : x < 0
  · rw [if_pos c1, if_pos c1]
    refine ⟨_, rfl, ?_⟩
    rw [toU32_toS32_any, wrap32_cast, Int.natCast_add, toU32_cast]
    omega
  · have ux := toU32_nn (by omega) hx
    rw [if_neg c1, if_neg c1]
    by_cases c2 : toU32 x ≥ n
    · rw [if_pos c2, if_pos (by omega)]
      refine ⟨_, rfl, ?_⟩
      rw [toU32_toS32_any, sub32_cast, ux]
      omega
    · rw [if_neg c2, if_neg (by omega)]
      exact ⟨x, rfl, toU32_cast x⟩

/-- C18, every coordinate: the reflecting border mirrors once and reads the cell at that place of the array, whether or not it belongs
to the row, or to the image; if the array has no such cell the behaviour is undefined. -/
theorem C18_reflect_far (h : Heap V) (g : Gray) {x y : Int} (hx : IsS32 x) (hy : IsS32 y)
    (hx0 : x ≠ -2147483648) (hy0 : y ≠ -2147483648) :
    (Border.reflect : Border V).get g x y h =
      match h.cell g.buf (((g.offset : Int) + mirrorOnce g.height y * g.stride + mirrorOnce g.width x) % 4294967296).toNat with
      | some v => .ok v h
      | none => .ub :=
  Border.get_cell (fun v => by simp) hx hy (adjust_reflect_any hx hx0 _) (adjust_reflect_any hy hy0 _)
    (fun h0 h1 => by unfold mirrorOnce; rw [if_neg (by omega), if_neg (by omega)])
    (fun h0 h1 => by unfold mirrorOnce; rw [if_neg (by omega), if_neg (by omega)])

/-- C19, every coordinate: the wrapping border moves by one period and reads the cell at that place of the array. -/
theorem C19_wrap_far (h : Heap V) (g : Gray) {x y : Int} (hx : IsS32 x) (hy : IsS32 y) :
    (Border.wrap : Border V).get g x y h =
      match h.cell g.buf (((g.offset : Int) + wrapOnce g.height y * g.stride + wrapOnce g.width x) % 4294967296).toNat with
      | some v => .ok v h
      | none => .ub :=
  Border.get_cell (fun v => by simp) hx hy (adjust_wrap_any hx _) (adjust_wrap_any hy _)
    (fun h0 h1 => by unfold wrapOnce; rw [if_neg (by omega), if_neg (by omega)])
    (fun h0 h1 => by unfold wrapOnce; rw [if_neg (by omega), if_neg (by omega)])

/-- In an image without gaps which ends its array, a coordinate two widths or more to the right reads a pixel of a later row, or, if there
is no such row, outside the array. -/
theorem C19_wrap_later_row {h : Heap V} {g : Gray} {cells : List V} (ha : h.get g.buf = some cells)
    (hl : cells.length = g.width * g.height) (ho : g.offset = 0) (hs : g.stride = g.width) (hw : 0 < g.width)
    {x y : Nat} (hx : 2 * g.width ≤ x) (hx2 : x < 2147483648) (hb : g.width * g.height + x ≤ P32) (hy : y < g.height)
    (hh : g.height < 2147483648) :
    (y + x / g.width - 1 < g.height → ∃ v, h.px g (x % g.width) (y + x / g.width - 1) = some v ∧
      (Border.wrap : Border V).get g x y h = .ok v h) ∧
    (g.height ≤ y + x / g.width - 1 → (Border.wrap : Border V).get g x y h = .ub) := by
  have hd : 2 ≤ x / g.width := by rw [Nat.le_div_iff_mul_le hw]; exact hx
  have hm := Nat.div_add_mod x g.width
  have hlt := Nat.mod_lt x hw
  have e1 : wrapOnce g.height (y : Int) = y := by unfold wrapOnce; rw [if_neg (by omega), if_neg (by omega)]
  have e2 : wrapOnce g.width (x : Int) = x - g.width := by unfold wrapOnce; rw [if_neg (by omega), if_pos (by omega)]
  obtain ⟨q, hq⟩ : ∃ q, x / g.width = q + 1 := ⟨x / g.width - 1, by omega⟩
  have hyw : y * g.width + g.width ≤ g.width * g.height := by
    rw [← Nat.succ_mul, Nat.mul_comm]; exact Nat.mul_le_mul_left _ hy
  have ex : x = g.width * q + g.width + x % g.width := by
    rw [hq, Nat.mul_succ] at hm; omega
  have eidx : ((((g.offset : Int) + wrapOnce g.height (y : Int) * g.stride + wrapOnce g.width (x : Int)) % 4294967296).toNat) =
      (y + q) * g.width + x % g.width := by
    have e3 : ((g.offset : Int) + wrapOnce g.height (y : Int) * g.stride + wrapOnce g.width (x : Int)) =
        (((y + q) * g.width + x % g.width : Nat) : Int) := by
      rw [e1, e2, ho, hs]
      have e4 : (x : Int) - g.width = ((g.width * q + x % g.width : Nat) : Int) := by omega
      rw [e4]
      push_cast
      ring
    have e5 : (y + q) * g.width + x % g.width < 4294967296 := by
      have : (y + q) * g.width = y * g.width + g.width * q := by ring
      unfold P32 at hb
      omega
    rw [e3]
    omega
  have er : y + x / g.width - 1 = y + q := by omega
  have key := C19_wrap_far h g (x := (x : Int)) (y := (y : Int)) (by unfold IsS32; omega) (by unfold IsS32; omega)
  rw [eidx] at key
  rw [er, key]
  have ec : h.cell g.buf ((y + q) * g.width + x % g.width) = cells[(y + q) * g.width + x % g.width]? := by
    unfold Heap.cell; rw [ha]; rfl
  have ea : g.addr (x % g.width) (y + q) = (y + q) * g.width + x % g.width := by
    unfold Gray.addr; rw [ho, hs]; omega
  constructor
  · intro hr
    have : (y + q) * g.width + x % g.width < cells.length := by
      rw [hl]
      calc _ < (y + q) * g.width + g.width := by omega
        _ = (y + q + 1) * g.width := by ring
        _ ≤ g.height * g.width := Nat.mul_le_mul_right _ hr
        _ = _ := Nat.mul_comm _ _
    refine ⟨cells[(y + q) * g.width + x % g.width], ?_, ?_⟩
    · unfold Heap.px; rw [ea, ec]; exact List.getElem?_eq_getElem this
    · rw [ec, List.getElem?_eq_getElem this]
  · intro hr
    have : cells.length ≤ (y + q) * g.width + x % g.width := by
      rw [hl, Nat.mul_comm]
      exact (Nat.mul_le_mul_right _ hr).trans (Nat.le_add_right _ _)
    rw [ec, List.getElem?_eq_none this]

/-- The hypotheses hold and both cases occur: in a picture of 2 columns and 3 rows, column 4 of row 0 is pixel (0,1), column 4 of row 2
does not exist. -/
example : (Border.wrap : Border Int).get ⟨0, 6, 2, 3, 0, 2, false⟩ (4 : Nat) (0 : Nat) ⟨[some [1, 2, 3, 4, 5, 6]]⟩ =
      .ok 3 ⟨[some [1, 2, 3, 4, 5, 6]]⟩ ∧
    (Border.wrap : Border Int).get ⟨0, 6, 2, 3, 0, 2, false⟩ (4 : Nat) (2 : Nat) ⟨[some [1, 2, 3, 4, 5, 6]]⟩ = .ub ∧
    (Border.reflect : Border Int).get ⟨0, 6, 2, 3, 0, 2, false⟩ (-3) 0 ⟨[some [1, 2, 3, 4, 5, 6]]⟩ =
      .ok 4 ⟨[some [1, 2, 3, 4, 5, 6]]⟩ := by decide +kernel

end Boof
