import Verif.Props.Print
/-
C88: the comparisons the tests are written with.  C89: the sub-images they are written with.
-/
namespace Boof
open M
variable {V : Type}

/-! ## C88 -/

theorem foldl_and {p : Nat → Bool} (n : Nat) (s : Bool) :
    (List.range n).foldl (fun s i => s && p i) s = true ↔ s = true ∧ ∀ i, i < n → p i = true := by
  induction n with
  | zero => simp
  | succ n ih =>
    rw [List.range_succ, List.foldl_append]
    simp only [List.foldl_cons, List.foldl_nil, Bool.and_eq_true]
    rw [ih]
    constructor
    · rintro ⟨⟨h1, h2⟩, h3⟩
      exact ⟨h1, fun i hi => if e : i = n then e ▸ h3 else h2 i (by omega)⟩
    · rintro ⟨h1, h2⟩
      exact ⟨⟨h1, fun i hi => h2 i (by omega)⟩, h2 n (by omega)⟩

/-- What all three checks have in common: memory is not changed, and the check passes exactly if the shapes agree and the pixels it
looks at are within the tolerance. -/
theorem checkPixels_run [LinearOrder V] {h : Heap V} {a b : Gray} {f g : Nat → Nat → V} {dist : V → V → Option V} {d : Nat → Nat → V}
    {sel : Nat → Nat → Bool} {tol : V} (ha : a.Valid h) (hb : b.Valid h) (hf : a.Shows h f) (hg : b.Shows h g)
    (hd : ∀ x y, x < a.width → y < a.height → sel x y = true → dist (f x y) (g x y) = some (d x y)) :
    ∃ r, checkPixels dist sel a b tol h = .ok r h ∧ (r = true ↔ a.width = b.width ∧ a.height = b.height ∧
      ∀ x y, x < a.width → y < a.height → sel x y = true → d x y ≤ tol) := by
  unfold checkPixels
  by_cases ew : a.width = b.width
  · rw [if_neg (fun hn => hn ew)]
    by_cases eh : a.height = b.height
    · rw [if_neg (fun hn => hn eh)]
      have hrow : ∀ y s, y < a.height → M.loopS a.width s (fun x ok =>
          if ok = false then pure false
          else if sel x y then do
            let va ← a.at' x y
            let vb ← b.at' x y
            let d ← opt (dist va vb)
            pure (decide (d ≤ tol))
          else pure ok) h = .ok (s && (List.range a.width).foldl (fun s x => s && (!sel x y || decide (d x y ≤ tol))) true) h := by
        intro y s hy
        rw [M.loopS_pure (fun s x => s && (!sel x y || decide (d x y ≤ tol))) (fun x s hx => ?_)]
        · congr 1
          rw [Bool.eq_iff_iff, foldl_and, Bool.and_eq_true, foldl_and]
          simp
        · cases s with
          | false => rfl
          | true =>
            rw [if_neg (by decide)]
            cases hs : sel x y with
            | false => rfl
            | true =>
              simp only [if_true]
              refine (M.bind_ok (ha.at_run hf hx hy)).trans ?_
              refine (M.bind_ok (hb.at_run hg (by omega) (by omega))).trans ?_
              rw [hd x y hx hy hs]
              refine (M.bind_ok (m := opt (some _)) rfl).trans ?_
              simp; rfl
      refine ⟨_, M.loopS_pure (fun s y => s && (List.range a.width).foldl (fun s x => s && (!sel x y || decide (d x y ≤ tol))) true)
        (fun y s hy => hrow y s hy), ?_⟩
      rw [foldl_and]
      refine ⟨fun ⟨_, h2⟩ => ⟨ew, eh, fun x y hx hy hs => ?_⟩, fun ⟨_, _, h3⟩ => ⟨rfl, fun y hy => ?_⟩⟩
      · have := ((foldl_and _ _).1 (h2 y hy)).2 x hx
        rw [hs] at this
        simpa using this
      · refine (foldl_and _ _).2 ⟨rfl, fun x hx => ?_⟩
        cases hs : sel x y with
        | false => rfl
        | true => simpa using h3 x y hx hy hs
    · rw [if_pos eh]
      exact ⟨false, rfl, by simp [eh]⟩
  · rw [if_pos ew]
    exact ⟨false, rfl, by simp [ew]⟩

section
variable {h : Heap Int} {a b : Gray} {f g : Nat → Nat → Int} {t : IntTy} {tol : Int}

/-- `check_equals` for integral pixels passes exactly if the images have the same shape and no pixels differ by more than the
tolerance; with tolerance 0 (the default, `test_tolerance`) exactly if they show the same picture.  It changes nothing. -/
theorem C88_check_equals (ht : t ∈ [U8, U16, S16, S32, S64]) (ha : a.Valid h) (hb : b.Valid h) (hf : a.Shows h f) (hg : b.Shows h g)
    (hr : ∀ x y, x < a.width → y < a.height → t.promote.lo < f x y - g x y ∧ f x y - g x y ≤ t.promote.hi) :
    ∃ r, checkEquals (absDiffInt t) a b tol h = .ok r h ∧
      (r = true ↔ a.width = b.width ∧ a.height = b.height ∧ Close a.width a.height (fun _ _ => True) f g tol) ∧
      (tol = 0 → (r = true ↔ a.width = b.width ∧ a.height = b.height ∧
        ∀ x y, x < a.width → y < a.height → f x y = g x y)) := by
  obtain ⟨r, e, hr'⟩ := checkPixels_run (sel := fun _ _ => true) (tol := tol) (d := fun x y => |f x y - g x y|) ha hb hf hg
    (fun x y hx hy _ => absDiff_exact ht (hr x y hx hy))
  refine ⟨r, e, hr'.trans ?_, fun e0 => hr'.trans ?_⟩
  · unfold Close
    refine and_congr_right (fun _ => and_congr_right (fun _ => ?_))
    refine ⟨fun h x y hx hy _ => ?_, fun h x y hx hy _ => ?_⟩
    · have := abs_le.1 (h x y hx hy rfl)
      exact max_le this.2 (by omega)
    · have := h x y hx hy trivial
      exact abs_le.2 ⟨by have := le_trans (le_max_right _ _) this; omega, le_trans (le_max_left _ _) this⟩
  · subst e0
    refine and_congr_right (fun _ => and_congr_right (fun _ => ?_))
    refine ⟨fun h x y hx hy => ?_, fun h x y hx hy _ => ?_⟩
    · have := abs_le.1 (h x y hx hy rfl)
      omega
    · show |f x y - g x y| ≤ 0
      rw [h x y hx hy, sub_self, abs_zero]

/-- `check_equals_border` compares exactly the frame whose widths are given, if the right and lower parts fit into the image. -/
theorem C88_check_border (ht : t ∈ [U8, U16, S16, S32, S64]) (ha : a.Valid h) (hb : b.Valid h) (hf : a.Shows h f) (hg : b.Shows h g)
    {bx0 bx1 by0 by1 : Nat} (hx1 : bx1 ≤ a.width) (hy1 : by1 ≤ a.height)
    (hr : ∀ x y, x < a.width → y < a.height → t.promote.lo < f x y - g x y ∧ f x y - g x y ≤ t.promote.hi) :
    ∃ r, checkEqualsBorder (absDiffInt t) a b bx0 bx1 by0 by1 tol h = .ok r h ∧
      (r = true ↔ a.width = b.width ∧ a.height = b.height ∧
        Close a.width a.height (fun x y => x < bx0 ∨ y < by0 ∨ a.width < x + 1 + bx1 ∨ a.height < y + 1 + by1) f g tol) := by
  obtain ⟨r, e, hr'⟩ := checkPixels_run (sel := onBorder a bx0 bx1 by0 by1) (tol := tol) (d := fun x y => |f x y - g x y|) ha hb hf hg
    (fun x y hx hy _ => absDiff_exact ht (hr x y hx hy))
  refine ⟨r, e, hr'.trans ?_⟩
  have hs : ∀ x y, onBorder a bx0 bx1 by0 by1 x y = true ↔
      (x < bx0 ∨ y < by0 ∨ a.width < x + 1 + bx1 ∨ a.height < y + 1 + by1) := by
    intro x y
    unfold onBorder
    rw [sub32_of_le hx1 ha.widthLt, sub32_of_le hy1 ha.heightLt]
    simp only [Bool.or_eq_true, decide_eq_true_eq]
    omega
  unfold Close
  refine and_congr_right (fun _ => and_congr_right (fun _ => ?_))
  refine ⟨fun h x y hx hy hs' => ?_, fun h x y hx hy hs' => ?_⟩
  · have := abs_le.1 (h x y hx hy ((hs x y).2 hs'))
    exact max_le this.2 (by omega)
  · have := h x y hx hy ((hs x y).1 hs')
    exact abs_le.2 ⟨by have := le_trans (le_max_right _ _) this; omega, le_trans (le_max_left _ _) this⟩

/-- `check_equals_inner` compares exactly the rest. -/
theorem C88_check_inner (ht : t ∈ [U8, U16, S16, S32, S64]) (ha : a.Valid h) (hb : b.Valid h) (hf : a.Shows h f) (hg : b.Shows h g)
    {bx0 bx1 by0 by1 : Nat} (hx1 : bx1 ≤ a.width) (hy1 : by1 ≤ a.height)
    (hr : ∀ x y, x < a.width → y < a.height → t.promote.lo < f x y - g x y ∧ f x y - g x y ≤ t.promote.hi) :
    ∃ r, checkEqualsInner (absDiffInt t) a b bx0 bx1 by0 by1 tol h = .ok r h ∧
      (r = true ↔ a.width = b.width ∧ a.height = b.height ∧
        Close a.width a.height (fun x y => ¬(x < bx0 ∨ y < by0 ∨ a.width < x + 1 + bx1 ∨ a.height < y + 1 + by1)) f g tol) := by
  obtain ⟨r, e, hr'⟩ := checkPixels_run (sel := onInner a bx0 bx1 by0 by1) (tol := tol) (d := fun x y => |f x y - g x y|) ha hb hf hg
    (fun x y hx hy _ => absDiff_exact ht (hr x y hx hy))
  refine ⟨r, e, hr'.trans ?_⟩
  have hs : ∀ x y, onInner a bx0 bx1 by0 by1 x y = true ↔
      ¬(x < bx0 ∨ y < by0 ∨ a.width < x + 1 + bx1 ∨ a.height < y + 1 + by1) := by
    intro x y
    unfold onInner
    rw [sub32_of_le hx1 ha.widthLt, sub32_of_le hy1 ha.heightLt]
    simp only [Bool.and_eq_true, decide_eq_true_eq]
    omega
  unfold Close
  refine and_congr_right (fun _ => and_congr_right (fun _ => ?_))
  refine ⟨fun h x y hx hy hs' => ?_, fun h x y hx hy hs' => ?_⟩
  · have := abs_le.1 (h x y hx hy ((hs x y).2 hs'))
    exact max_le this.2 (by omega)
  · have := h x y hx hy ((hs x y).1 hs')
    exact abs_le.2 ⟨by have := le_trans (le_max_right _ _) this; omega, le_trans (le_max_left _ _) this⟩

/-- Checking the frame and the rest is checking everything, whatever the widths of the frame. -/
theorem C88_check_split (ht : t ∈ [U8, U16, S16, S32, S64]) (ha : a.Valid h) (hb : b.Valid h) (hf : a.Shows h f) (hg : b.Shows h g)
    (bx0 bx1 by0 by1 : Nat)
    (hr : ∀ x y, x < a.width → y < a.height → t.promote.lo < f x y - g x y ∧ f x y - g x y ≤ t.promote.hi) :
    ∃ r s u, checkEqualsBorder (absDiffInt t) a b bx0 bx1 by0 by1 tol h = .ok r h ∧
      checkEqualsInner (absDiffInt t) a b bx0 bx1 by0 by1 tol h = .ok s h ∧ checkEquals (absDiffInt t) a b tol h = .ok u h ∧
      (u = true ↔ r = true ∧ s = true) := by
  have hd : ∀ x y, x < a.width → y < a.height → absDiffInt t (f x y) (g x y) = some |f x y - g x y| :=
    fun x y hx hy => absDiff_exact ht (hr x y hx hy)
  obtain ⟨r, e1, h1⟩ := checkPixels_run (sel := onBorder a bx0 bx1 by0 by1) (tol := tol) (d := fun x y => |f x y - g x y|) ha hb hf hg
    (fun x y hx hy _ => hd x y hx hy)
  obtain ⟨s, e2, h2⟩ := checkPixels_run (sel := onInner a bx0 bx1 by0 by1) (tol := tol) (d := fun x y => |f x y - g x y|) ha hb hf hg
    (fun x y hx hy _ => hd x y hx hy)
  obtain ⟨u, e3, h3⟩ := checkPixels_run (sel := fun _ _ => true) (tol := tol) (d := fun x y => |f x y - g x y|) ha hb hf hg
    (fun x y hx hy _ => hd x y hx hy)
  refine ⟨r, s, u, e1, e2, e3, ?_⟩
  rw [h1, h2, h3]
  constructor
  · rintro ⟨ew, eh, hn⟩
    exact ⟨⟨ew, eh, fun x y hx hy _ => hn x y hx hy rfl⟩, ew, eh, fun x y hx hy _ => hn x y hx hy rfl⟩
  · rintro ⟨⟨ew, eh, hn⟩, -, -, hm⟩
    refine ⟨ew, eh, fun x y hx hy _ => ?_⟩
    cases hs : onBorder a bx0 bx1 by0 by1 x y with
    | true => exact hn x y hx hy hs
    | false =>
      refine hm x y hx hy ?_
      unfold onBorder at hs
      unfold onInner
      simp only [Bool.or_eq_false_iff, decide_eq_false_iff_not, not_lt, not_le] at hs
      simp only [Bool.and_eq_true, decide_eq_true_eq]
      omega

end

/-- A frame wider than the image: every pixel belongs to it, but `width - border` wraps around and the pixels which differ are not
looked at. -/
theorem C88_border_refuted :
    checkEqualsBorder (absDiffInt U8) ⟨0, 2, 2, 1, 0, 2, false⟩ ⟨1, 2, 2, 1, 0, 2, false⟩ 0 3 0 0 0
      (⟨[some [1, 2], some [3, 4]]⟩ : Heap Int) = .ok true ⟨[some [1, 2], some [3, 4]]⟩ := by decide +kernel

/-- The hypotheses hold and the three checks disagree. -/
example : checkEquals (absDiffInt U8) ⟨0, 9, 3, 3, 0, 3, false⟩ ⟨1, 9, 3, 3, 0, 3, false⟩ 0
      (⟨[some (List.replicate 9 5), some [5, 5, 5, 5, 6, 5, 5, 5, 5]]⟩ : Heap Int) =
      .ok false ⟨[some (List.replicate 9 5), some [5, 5, 5, 5, 6, 5, 5, 5, 5]]⟩ ∧
    checkEqualsBorder (absDiffInt U8) ⟨0, 9, 3, 3, 0, 3, false⟩ ⟨1, 9, 3, 3, 0, 3, false⟩ 1 1 1 1 0
      (⟨[some (List.replicate 9 5), some [5, 5, 5, 5, 6, 5, 5, 5, 5]]⟩ : Heap Int) =
      .ok true ⟨[some (List.replicate 9 5), some [5, 5, 5, 5, 6, 5, 5, 5, 5]]⟩ ∧
    checkEqualsInner (absDiffInt U8) ⟨0, 9, 3, 3, 0, 3, false⟩ ⟨1, 9, 3, 3, 0, 3, false⟩ 1 1 1 1 1
      (⟨[some (List.replicate 9 5), some [5, 5, 5, 5, 6, 5, 5, 5, 5]]⟩ : Heap Int) =
      .ok true ⟨[some (List.replicate 9 5), some [5, 5, 5, 5, 6, 5, 5, 5, 5]]⟩ := by decide +kernel

/-! ## C89 -/

/-- `create_subimage(input)` returns a window with gaps between its rows (four cells each) which shows the same picture as the input,
surrounded by zeros; the input is unchanged.  It lies in one new array which, as documented, nobody releases: it is still there when the
window is gone. -/
theorem C89_create_subimage {h : Heap V} (z : V) {input : Gray} {f : Nat → Nat → V} (hi : input.Valid h) (hf : input.Shows h f)
    (ha : (input.width + 4) * (input.height + 6) < P32) :
    ∃ s h', createSubimage z input h = .ok s h' ∧ s.width = input.width ∧ s.height = input.height ∧ s.Valid h' ∧ s.Shows h' f ∧
      s.subimage = true ∧ s.stride = s.width + 4 ∧ s.buf = h.next ∧ OneMore h h' ∧ input.Valid h' ∧ input.Shows h' f ∧
      (∀ i, i < (input.width + 4) * (input.height + 6) → (∀ x y, x < s.width → y < s.height → i ≠ s.addr x y) →
        h'.cell s.buf i = some z) ∧
      s.destroy h' = .ok () h' := by
  have hw4 : input.width + 4 < P32 := by
    have : (input.width + 4) * 1 ≤ (input.width + 4) * (input.height + 6) := Nat.mul_le_mul_left _ (by omega)
    omega
  have hh6 : input.height + 6 < P32 := by
    have : 1 * (input.height + 6) ≤ (input.width + 4) * (input.height + 6) := Nat.mul_le_mul_right _ (by omega)
    omega
  unfold createSubimage
  rw [wrap32_of_lt hw4, wrap32_of_lt hh6, wrap32_of_lt (by omega), wrap32_of_lt (by omega)]
  obtain ⟨l, e1, lb, lw, lh, ls, lv, ll⟩ := new_spec z h hw4 hh6 ha
  have one := World.new_oneMore z h (input.width + 4) (input.height + 6)
  have hlt := hi.lt_next
  have hne : input.buf ≠ h.next := by omega
  obtain ⟨sub, e2, sv, ss, sw, sh, sb, sa⟩ := C04_window lv (x0 := 2) (y0 := 3) (x1 := 2 + input.width) (y1 := 3 + input.height)
    (by omega) (by omega) (by omega) (by omega)
  have sst : sub.stride = l.stride := by
    unfold Gray.makeSubimage at e2
    rw [if_neg (by omega)] at e2
    cases e2; rfl
  have hstride : sub.stride = input.width + 4 := by rw [sst, (lv.owner ls).2, lw]
  have hv1 : input.Valid (h.alloc (List.replicate ((input.width + 4) * (input.height + 6)) z)) :=
    hi.transfer (by rw [one.alive _ hlt]; exact hi.live) (fun i hi' => by rw [one.frame _ _ hlt]; exact hi.cells i hi')
  have hf1 : input.Shows (h.alloc (List.replicate ((input.width + 4) * (input.height + 6)) z)) f := fun x y hx hy => by
    unfold Heap.px; rw [one.frame _ _ hlt]; exact hf x y hx hy
  have hbuf : input.buf ≠ sub.buf := by rw [sb, lb]; exact hne
  have hsw : sub.width = input.width := by omega
  have hsh : sub.height = input.height := by omega
  obtain ⟨s', h', e3, p, pf⟩ := C05_copy z sv hv1 (Or.inr ⟨hsw, hsh⟩) (Or.inl hbuf) hf1
  obtain ⟨es, pp⟩ := p.inPlace hsw hsh
  subst es
  refine ⟨s', h', ?_, p.width, p.height, p.valid, fun x y hx hy => ?_, ss, by rw [hstride, p.width], by rw [sb, lb], ⟨?_, ?_, ?_, ?_⟩,
    ?_, pf, ?_, ?_⟩
  · refine (M.bind_ok e1).trans ((M.bind_ok e2).trans ((M.bind_ok e3).trans ?_))
    refine (M.bind_ok (m := Gray.destroy _) (a := ()) (h' := h') rfl).trans rfl
  · exact p.pix x y (by omega) (by omega)
  · rw [pp.next, one.next]
  · rw [pp.alive]; exact one.live
  · intro b i hb
    rw [pp.frame b i (fun _ _ _ _ hc => by rw [hc.1, sb, lb] at hb; omega)]
    exact one.frame b i hb
  · intro b hb
    rw [pp.alive]; exact one.alive b hb
  · exact hv1.transfer (by rw [pp.alive]; exact hv1.live) (fun i hi' => by
      rw [p.frame _ _ hbuf (by rw [one.next]; omega)]; exact hv1.cells i hi')
  · intro i hi' hn
    rw [pp.frame _ i (fun x y hx hy hc => hn x y hx hy hc.2), sb, lb, Heap.cell_alloc, if_pos rfl, List.getElem?_replicate, if_pos hi']
  · unfold Gray.destroy
    rw [if_pos ss]; rfl

/-- A case which meets the hypotheses. -/
example : createSubimage 0 ⟨0, 2, 2, 1, 0, 2, false⟩ (⟨[some [8, 9]]⟩ : Heap Int) =
    .ok ⟨1, 42, 2, 1, 20, 6, true⟩ ⟨[some [8, 9], some (List.replicate 20 0 ++ [8, 9] ++ List.replicate 20 0)]⟩ ∧
    Gray.Valid (⟨[some [8, 9]]⟩ : Heap Int) ⟨0, 2, 2, 1, 0, 2, false⟩ := by decide +kernel

end Boof
