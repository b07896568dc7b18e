import Verif.Proofs.Border
/-
C17-C20: image borders.
-/
namespace Boof
variable {V : Type}

/-- C17.  For every 32-bit coordinate and every non-empty image the extended border returns the pixel at the nearest
coordinates. -/
theorem C17_extended {h : Heap V} {g : Gray} (hv : g.Valid h) (hw : 0 < g.width) (hh : 0 < g.height) {x y : Int}
    (hx : IsS32 x) (hy : IsS32 y) :
    ∃ v, (Border.extend : Border V).get g x y h = .ok v h ∧ h.px g (clampTo g.width x) (clampTo g.height y) = some v := by
  obtain ⟨a1, a2⟩ := adjust_extend (h := h) hx hw hv.widthLt
  obtain ⟨b1, b2⟩ := adjust_extend (h := h) hy hh hv.heightLt
  exact Border.get_of_adjust (fun v => by simp) hv hx hy a1 a2 b1 b2
    (fun h0 h1 => by unfold clampTo; omega) (fun h0 h1 => by unfold clampTo; omega)

example : (Border.extend : Border Int).get ⟨0, 6, 3, 2, 0, 3, false⟩ (-5) 9 ⟨[some [1, 2, 3, 4, 5, 6]]⟩
    = .ok 4 ⟨[some [1, 2, 3, 4, 5, 6]]⟩ := by decide

/-- C18 within one reflection: coordinates at most `n-1` beyond either edge.  MISSING for the full property:
coordinates farther away, for which it is false (`C18_reflect_refuted`). -/
theorem C18_reflect_partial {h : Heap V} {g : Gray} (hv : g.Valid h) {x y : Int}
    (hx : IsS32 x) (hy : IsS32 y) (hx0 : x ≠ -2147483648) (hy0 : y ≠ -2147483648)
    (hw : 0 < g.width) (hh : 0 < g.height)
    (x1 : -((g.width:Int) - 1) ≤ x) (x2 : x ≤ 2 * (g.width:Int) - 2)
    (y1 : -((g.height:Int) - 1) ≤ y) (y2 : y ≤ 2 * (g.height:Int) - 2) :
    ∃ v, (Border.reflect : Border V).get g x y h = .ok v h ∧
      h.px g (mirrorTo g.width x) (mirrorTo g.height y) = some v := by
  obtain ⟨a1, a2⟩ := adjust_reflect (h := h) hx hw hv.widthLt x1 x2 hx0
  obtain ⟨b1, b2⟩ := adjust_reflect (h := h) hy hh hv.heightLt y1 y2 hy0
  exact Border.get_of_adjust (fun v => by simp) hv hx hy a1 a2 b1 b2 mirror_in mirror_in

/-- Two steps past the edge of a 2x1 image the reflect border reads outside the array (undefined behaviour); the
mirrored coordinate would be 1. -/
theorem C18_reflect_refuted :
    (Border.reflect : Border Int).get ⟨0, 2, 2, 1, 0, 2, false⟩ 3 0 ⟨[some [10, 20]]⟩ = .ub ∧ mirrorTo 2 3 = 1 := by
  decide

/-- It can also silently return a pixel of another row: in a 2x2 image, `get(-2,0)` returns pixel (0,1) instead of
the mirrored pixel (0,0). -/
theorem C18_reflect_wrong_row_refuted :
    (Border.reflect : Border Int).get ⟨0, 4, 2, 2, 0, 2, false⟩ (-2) 0 ⟨[some [10, 20, 30, 40]]⟩
      = .ok 30 ⟨[some [10, 20, 30, 40]]⟩ ∧ mirrorTo 2 (-2) = 0 := by
  decide

example : (Border.reflect : Border Int).get ⟨0, 6, 3, 2, 0, 3, false⟩ (-2) 2 ⟨[some [1, 2, 3, 4, 5, 6]]⟩
    = .ok 3 ⟨[some [1, 2, 3, 4, 5, 6]]⟩ := by decide

/-- C19 within one period on either side.  MISSING for the full property: coordinates farther away, for which it is
false (`C19_wrap_refuted`). -/
theorem C19_wrap_partial {h : Heap V} {g : Gray} (hv : g.Valid h) {x y : Int} (hx : IsS32 x) (hy : IsS32 y)
    (x1 : -(g.width:Int) ≤ x) (x2 : x < 2 * (g.width:Int))
    (y1 : -(g.height:Int) ≤ y) (y2 : y < 2 * (g.height:Int)) :
    ∃ v, (Border.wrap : Border V).get g x y h = .ok v h ∧
      h.px g (wrapTo g.width x) (wrapTo g.height y) = some v := by
  obtain ⟨a1, a2⟩ := adjust_wrap (h := h) hx hv.widthLt x1 x2
  obtain ⟨b1, b2⟩ := adjust_wrap (h := h) hy hv.heightLt y1 y2
  refine Border.get_of_adjust (fun v => by simp) hv hx hy a1 a2 b1 b2 ?_ ?_
  · intro h0 h1; unfold wrapTo; rw [Int.emod_eq_of_lt h0 h1]
  · intro h0 h1; unfold wrapTo; rw [Int.emod_eq_of_lt h0 h1]

/-- Two periods away from a 2x1 image the wrap border reads outside the array. -/
theorem C19_wrap_refuted :
    (Border.wrap : Border Int).get ⟨0, 2, 2, 1, 0, 2, false⟩ 4 0 ⟨[some [10, 20]]⟩ = .ub ∧ wrapTo 2 4 = 0 := by
  decide

example : (Border.wrap : Border Int).get ⟨0, 6, 3, 2, 0, 3, false⟩ (-1) 3 ⟨[some [1, 2, 3, 4, 5, 6]]⟩
    = .ok 6 ⟨[some [1, 2, 3, 4, 5, 6]]⟩ := by decide

/-- C20.  For every 32-bit coordinate (and any image, also an empty one) the value border returns the pixel inside and
the constant outside. -/
theorem C20_value {h : Heap V} {g : Gray} (hv : g.Valid h) (c : V) {x y : Int} (hx : IsS32 x) (hy : IsS32 y) :
    (0 ≤ x → x < g.width → 0 ≤ y → y < g.height →
      ∃ v, (Border.value c).get g x y h = .ok v h ∧ h.px g x.toNat y.toNat = some v) ∧
    (¬(0 ≤ x ∧ x < g.width ∧ 0 ≤ y ∧ y < g.height) → (Border.value c).get g x y h = .ok c h) := by
  refine ⟨?_, ?_⟩
  · intro h1 h2 h3 h4
    have ux := toU32_nn h1 hx
    have uy := toU32_nn h3 hy
    obtain ⟨v, e⟩ := hv.px_some (x := x.toNat) (y := y.toNat) (by omega) (by omega)
    refine ⟨v, ?_, e⟩
    have e1 : toU32 x = x.toNat := by omega
    have e2 : toU32 y = y.toNat := by omega
    unfold Border.get
    rw [if_pos (by omega), e1, e2]
    unfold Gray.at'
    rw [if_neg (by omega), hv.index_eq (by omega) (by omega)]
    exact M.rd_run e
  · intro hn
    unfold Border.get
    rw [if_neg]
    · rfl
    · rintro ⟨h1, h2, h3, h4⟩
      have ux := toU32_nn h1 hx
      have uy := toU32_nn h2 hy
      omega

/-- `value_SB(c)` makes that border. -/
theorem C20_value_factory {h : Heap V} {g : Gray} (hv : g.Valid h) (c : V) {x y : Int} (hx : IsS32 x) (hy : IsS32 y)
    (ho : ¬(0 ≤ x ∧ x < g.width ∧ 0 ≤ y ∧ y < g.height)) : (valueSB c).get g x y h = .ok c h :=
  (C20_value hv c hx hy).2 ho

/-- The factory builds the border of the requested type and throws for the two it does not support. -/
theorem C20_factory (z : V) (h : Heap V) (t : BorderType) :
    createSB z t h = match t with
      | .extended => .ok .extend h
      | .reflect => .ok .reflect h
      | .wrap => .ok .wrap h
      | .zero => .ok (.value z) h
      | .skip => .throw h
      | .normalized => .throw h := by
  cases t <;> rfl

/-- For pixels inside the image all borders return that pixel. -/
theorem C20_inside {h : Heap V} {g : Gray} (hv : g.Valid h) (b : Border V) {x y : Int} (hx : IsS32 x) (hy : IsS32 y)
    (h1 : 0 ≤ x) (h2 : x < g.width) (h3 : 0 ≤ y) (h4 : y < g.height) :
    ∃ v, b.get g x y h = .ok v h ∧ h.px g x.toNat y.toNat = some v := by
  have ux := toU32_nn h1 hx
  have uy := toU32_nn h3 hy
  obtain ⟨v, e⟩ := hv.px_some (x := x.toNat) (y := y.toNat) (by omega) (by omega)
  refine ⟨v, ?_, e⟩
  have e1 : toU32 x = x.toNat := by omega
  have e2 : toU32 y = y.toNat := by omega
  unfold Border.get
  rw [if_pos (by omega), e1, e2]
  unfold Gray.at'
  rw [if_neg (by omega), hv.index_eq (by omega) (by omega)]
  exact M.rd_run e

example : (Border.value 9 : Border Int).get ⟨0, 6, 3, 2, 0, 3, false⟩ 3 0 ⟨[some [1, 2, 3, 4, 5, 6]]⟩
    = .ok 9 ⟨[some [1, 2, 3, 4, 5, 6]]⟩ := by decide

end Boof
