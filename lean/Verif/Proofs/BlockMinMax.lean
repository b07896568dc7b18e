import Verif.Proofs.BlockMean
namespace Boof
variable {K : Type} [Field K] [LinearOrder K] [IsStrictOrderedRing K] [FloorRing K]

theorem Gray.Valid.at_run {V : Type} {h : Heap V} {g : Gray} (hv : g.Valid h) {f : Nat → Nat → V} (hf : g.Shows h f) {x y : Nat}
    (hx : x < g.width) (hy : y < g.height) : g.at' x y h = .ok (f x y) h := by
  unfold Gray.at'
  rw [if_neg (by omega), hv.index_eq hx hy]
  exact M.rd_run (hf x y hx hy)

theorem Interleaved.Valid.at_run {V : Type} {h : Heap V} {g : Interleaved} (hv : g.Valid h) {f : Nat → Nat → Nat → V}
    (hf : g.Shows h f) {x y b : Nat} (hx : x < g.width) (hy : y < g.height) (hb : b < g.numBands) :
    g.at' x y b h = .ok (f x y b) h := by
  unfold Interleaved.at'
  rw [if_neg (by omega), hv.index_eq hx hy hb]
  exact M.rd_run (hf x y b hx hy hb)

/-- A finite non-empty set of values has a smallest one. -/
theorem exists_min_fin (g : Nat → Int) (n : Nat) : ∃ k, k ≤ n ∧ ∀ j, j ≤ n → g k ≤ g j := by
  induction n with
  | zero => exact ⟨0, Nat.le_refl _, fun j hj => by rw [Nat.le_zero.mp hj]⟩
  | succ n ih =>
    obtain ⟨k, hk, hm⟩ := ih
    by_cases e : g k ≤ g (n+1)
    · refine ⟨k, by omega, fun j hj => ?_⟩
      by_cases e' : j = n + 1
      · rw [e']; exact e
      · exact hm j (by omega)
    · refine ⟨n+1, Nat.le_refl _, fun j hj => ?_⟩
      by_cases e' : j = n + 1
      · rw [e']
      · have := hm j (by omega); omega

theorem exists_rectMin (f : Nat → Nat → Int) {x0 x1 y0 y1 : Nat} (hx : x0 < x1) (hy : y0 < y1) :
    ∃ m, IsRectMin f x0 x1 y0 y1 m := by
  have hrow : ∀ y, ∃ k, x0 + k < x1 ∧ ∀ x, x0 ≤ x → x < x1 → f (x0 + k) y ≤ f x y := by
    intro y
    obtain ⟨k, hk, hm⟩ := exists_min_fin (fun k => f (x0 + k) y) (x1 - x0 - 1)
    refine ⟨k, by omega, fun x h1 h2 => ?_⟩
    have := hm (x - x0) (by omega)
    simp only [show x0 + (x - x0) = x by omega] at this
    exact this
  choose col hc hcm using hrow
  obtain ⟨k, hk, hm⟩ := exists_min_fin (fun k => f (x0 + col (y0 + k)) (y0 + k)) (y1 - y0 - 1)
  refine ⟨_, fun x y a b c d => ?_, x0 + col (y0 + k), y0 + k, by omega, hc _, by omega, by omega, rfl⟩
  have h1 := hm (y - y0) (by omega)
  simp only [show y0 + (y - y0) = y by omega] at h1
  exact Int.le_trans h1 (hcm y x a b)

theorem exists_rectMax (f : Nat → Nat → Int) {x0 x1 y0 y1 : Nat} (hx : x0 < x1) (hy : y0 < y1) :
    ∃ m, IsRectMax f x0 x1 y0 y1 m := by
  obtain ⟨m, h1, x, y, a, b, c, d, e⟩ := exists_rectMin (fun x y => - f x y) hx hy
  simp only at e
  refine ⟨-m, fun x y a b c d => ?_, x, y, a, b, c, d, by omega⟩
  have := h1 x y a b c d
  simp only at this
  omega

theorem IsRectMin.unique {f : Nat → Nat → Int} {x0 x1 y0 y1 : Nat} {m m' : Int} (h : IsRectMin f x0 x1 y0 y1 m)
    (h' : IsRectMin f x0 x1 y0 y1 m') : m = m' := by
  obtain ⟨h1, x, y, a, b, c, d, e⟩ := h
  obtain ⟨h1', x', y', a', b', c', d', e'⟩ := h'
  have := h1 x' y' a' b' c' d'
  have := h1' x y a b c d
  omega

theorem IsRectMax.unique {f : Nat → Nat → Int} {x0 x1 y0 y1 : Nat} {m m' : Int} (h : IsRectMax f x0 x1 y0 y1 m)
    (h' : IsRectMax f x0 x1 y0 y1 m') : m = m' := by
  obtain ⟨h1, x, y, a, b, c, d, e⟩ := h
  obtain ⟨h1', x', y', a', b', c', d', e'⟩ := h'
  have := h1 x' y' a' b' c' d'
  have := h1' x y a b c d
  omega

/-- The extremes of the blocks `(i,j)` of the grid. -/
structure Extremes (w ht req : Nat) (f : Nat → Nat → Int) (mn mx : Nat → Nat → Int) : Prop where
  mn : ∀ i j, i < Grid.count w req → j < Grid.count ht req →
    IsRectMin f (Grid.lo w req i) (Grid.hi w req i) (Grid.lo ht req j) (Grid.hi ht req j) (mn i j)
  mx : ∀ i j, i < Grid.count w req → j < Grid.count ht req →
    IsRectMax f (Grid.lo w req i) (Grid.hi w req i) (Grid.lo ht req j) (Grid.hi ht req j) (mx i j)

theorem minmax_statsOk {t : IntTy} {minimumSpread : K} {scaleMul : Int → K} {u down : Bool}
    {st : Interleaved} (hnb : st.numBands = 2) {input : Gray} {f : Nat → Nat → Int} {req : Nat} (h1 : 1 ≤ req)
    (hw : req ≤ input.width) (hh : req ≤ input.height) {mn mx : Nat → Nat → Int}
    (hex : Extremes input.width input.height req f mn mx) :
    StatsOk (BlockMinMax.ops t minimumSpread scaleMul u down) st input f req (fun _ => True)
      (fun i j k => if k = 0 then mn i j else mx i j) := by
  intro i j h hi hj hv hf hne idx hidx hcell
  obtain ⟨a1, a2⟩ := Grid.lo_le h1 hw hi
  obtain ⟨b1, b2⟩ := Grid.lo_le h1 hh hj
  have sw := Grid.le_size h1 hw
  have sh := Grid.le_size h1 hh
  obtain ⟨n1, xn, yn, n2, n3, n4, n5, n6⟩ := hex.mn i j hi hj
  obtain ⟨m1, xm, ym, m2, m3, m4, m5, m6⟩ := hex.mx i j hi hj
  show Spec (BlockMinMax.blockStats st _ _ _ _ _ input) h _
  unfold BlockMinMax.blockStats
  generalize Grid.lo input.width req i = x0 at *
  generalize Grid.hi input.width req i = x1 at *
  generalize Grid.lo input.height req j = y0 at *
  generalize Grid.hi input.height req j = y1 at *
  refine Spec.bind_eq (hv.at_run hf (x := x0) (y := y0) (by omega) (by omega)) ?_
  have hfold : Spec (M.loopS (y1 - y0) (f x0 y0, f x0 y0) (fun y mm =>
      M.loopS (x1 - x0) mm (fun k mm => do
        let value ← M.rd input.buf (wrap32 (wrap32 (input.offset + (y0 + y) * input.stride + x0) + k))
        if value < mm.1 then pure (value, mm.2)
        else if value > mm.2 then pure (mm.1, value)
        else pure mm))) h (fun mm h' => mm = (mn i j, mx i j) ∧ h' = h) := by
    refine Spec.conseq (Spec.loopS (fun y mm h' => (mn i j ≤ mm.1 ∧ mm.2 ≤ mx i j ∧ mm.1 ≤ mm.2 ∧
      ∀ x' y', x0 ≤ x' → x' < x1 → y0 ≤ y' → y' < y0 + y → mm.1 ≤ f x' y' ∧ f x' y' ≤ mm.2) ∧ h' = h)
      ⟨⟨n1 _ _ (by omega) (by omega) (by omega) (by omega), m1 _ _ (by omega) (by omega) (by omega) (by omega),
        Int.le_refl _, fun x' y' _ _ _ _ => by omega⟩, rfl⟩ ?_) ?_
    · rintro y mm h' hy ⟨⟨q1, q2, q3, q4⟩, rfl⟩
      refine Spec.conseq (Spec.loopS (fun k mm h1 => (mn i j ≤ mm.1 ∧ mm.2 ≤ mx i j ∧ mm.1 ≤ mm.2 ∧
        ∀ x' y', x0 ≤ x' → x' < x1 → y0 ≤ y' → (y' < y0 + y ∨ (y' = y0 + y ∧ x' < x0 + k)) →
          mm.1 ≤ f x' y' ∧ f x' y' ≤ mm.2) ∧ h1 = h')
        ⟨⟨q1, q2, q3, fun x' y' c1 c2 c3 c4 => q4 x' y' c1 c2 c3 (by omega)⟩, rfl⟩ ?_) ?_
      · rintro k mm h1 hk ⟨⟨r1, r2, r3, r4⟩, rfl⟩
        have hrd : M.rd input.buf (wrap32 (wrap32 (input.offset + (y0 + y) * input.stride + x0) + k)) h1 =
            .ok (f (x0 + k) (y0 + y)) h1 := by
          rw [(hv.addr_from (by omega) (by omega)).2]
          exact M.rd_run (hf _ _ (by omega) (by omega))
        refine Spec.bind_eq hrd ?_
        have p1 := n1 (x0 + k) (y0 + y) (by omega) (by omega) (by omega) (by omega)
        have p2 := m1 (x0 + k) (y0 + y) (by omega) (by omega) (by omega) (by omega)
        have hstep : ∀ mm' : Int × Int, mm'.1 ≤ mm.1 → mm.2 ≤ mm'.2 → mm'.1 ≤ f (x0 + k) (y0 + y) →
            f (x0 + k) (y0 + y) ≤ mm'.2 → ∀ x' y', x0 ≤ x' → x' < x1 → y0 ≤ y' →
            (y' < y0 + y ∨ (y' = y0 + y ∧ x' < x0 + (k + 1))) → mm'.1 ≤ f x' y' ∧ f x' y' ≤ mm'.2 := by
          intro mm' s1 s2 s3 s4 x' y' c1 c2 c3 c4
          by_cases e : y' = y0 + y ∧ x' = x0 + k
          · obtain ⟨rfl, rfl⟩ := e; exact ⟨s3, s4⟩
          · have := r4 x' y' c1 c2 c3 (by omega)
            omega
        split
        · exact Spec.pure ⟨⟨p1, r2, by simp only; omega, hstep _ (by simp only; omega) (by simp only; omega)
            (by simp only; omega) (by simp only; omega)⟩, rfl⟩
        · split
          · exact Spec.pure ⟨⟨r1, p2, by simp only; omega, hstep _ (by simp only; omega) (by simp only; omega)
              (by simp only; omega) (by simp only; omega)⟩, rfl⟩
          · exact Spec.pure ⟨⟨r1, r2, r3, hstep _ (by omega) (by omega) (by omega) (by omega)⟩, rfl⟩
      · rintro mm h1 ⟨⟨r1, r2, r3, r4⟩, rfl⟩
        exact ⟨⟨r1, r2, r3, fun x' y' c1 c2 c3 c4 => r4 x' y' c1 c2 c3 (by omega)⟩, rfl⟩
    · rintro mm h' ⟨⟨r1, r2, r3, r4⟩, rfl⟩
      refine ⟨?_, rfl⟩
      have g1 := (r4 xn yn n2 n3 n4 (by omega)).1
      have g2 := (r4 xm ym m2 m3 m4 (by omega)).2
      have e1 : mm.1 = mn i j := by omega
      have e2 : mm.2 = mx i j := by omega
      rw [← e1, ← e2]
  refine Spec.bind hfold ?_
  rintro mm h' ⟨rfl, rfl⟩
  rw [hnb] at hcell hidx ⊢
  obtain ⟨v0, c0, _⟩ := hcell 0 (by omega)
  obtain ⟨v1, c1, _⟩ := hcell 1 (by omega)
  refine Spec.bind ((CellsSet.refl h' st.buf idx (fun k => if k - idx = 0 then mn i j else mx i j)).wr (Nat.le_refl _) ⟨v0, c0⟩
    (by simp)) ?_
  intro _ h2 hs
  rw [wrap32_of_lt (by omega)]
  exact hs.wr (by omega) ⟨v1, by rw [hs.frame _ _ (by omega)]; exact c1⟩ (by simp)

theorem minmax_threshOk {t : IntTy} (ht : t = U8 ∨ t = U16 ∨ t = S16) {minimumSpread : K} {scaleMul : Int → K} {u down : Bool}
    {b : Blocks} (hnb : b.stats.numBands = 2) {input output : Gray} {f : Nat → Nat → Int} {req : Nat} (h1 : 1 ≤ req)
    (hw : req ≤ input.width) (hh : req ≤ input.height) (ew : output.width = input.width) (eh : output.height = input.height)
    (ebw : b.blockWidth = Grid.size input.width req) (ebh : b.blockHeight = Grid.size input.height req)
    (esw : b.stats.width = Grid.count input.width req) (esh : b.stats.height = Grid.count input.height req)
    (hfr : ∀ x y, x < input.width → y < input.height → t.InRange (f x y))
    {mn mx lmn lmx : Nat → Nat → Int} (hex : Extremes input.width input.height req f mn mx)
    (hlmn : ∀ i j, i < Grid.count input.width req → j < Grid.count input.height req →
      IsRectMin f (localLo u input.width req i) (localHi u input.width req i) (localLo u input.height req j)
        (localHi u input.height req j) (lmn i j))
    (hlmx : ∀ i j, i < Grid.count input.width req → j < Grid.count input.height req →
      IsRectMax f (localLo u input.width req i) (localHi u input.width req i) (localLo u input.height req j)
        (localHi u input.height req j) (lmx i j))
    (hspread : t.sumType.InRange (truncK minimumSpread))
    (hscale : ∀ m, t.InRange m → t.sumType.InRange (truncK (scaleMul m))) :
    ThreshOk (BlockMinMax.ops t minimumSpread scaleMul u down) b input output f req
      (fun i j k => if k = 0 then mn i j else mx i j)
      (fun x y =>
        let i := Grid.blockOf input.width req x
        let j := Grid.blockOf input.height req y
        if lmx i j - lmn i j ≤ truncK minimumSpread then 1
        else b2i (down == decide (f x y ≤ truncK (scaleMul ((lmx i j + lmn i j).tdiv 2))))) := by
  intro i j h h1' h2 P hi hj hsv hss hov hr hp hP
  have hvi := hr.valid
  obtain ⟨a1, a2⟩ := Grid.lo_le h1 hw hi
  obtain ⟨b1, b2⟩ := Grid.lo_le h1 hh hj
  have li := Grid.last_lt (u := u) hi
  have lj := Grid.last_lt (u := u) hj
  have fi := Grid.first_le u i
  have fj := Grid.first_le u j
  have li2 := Grid.le_last (u := u) hi
  have lj2 := Grid.le_last (u := u) hj
  obtain ⟨n1, xn, yn, n2, n3, n4, n5, n6⟩ := hlmn i j hi hj
  obtain ⟨m1, xm, ym, m2, m3, m4, m5, m6⟩ := hlmx i j hi hj
  have lxn := (Grid.lo_le h1 hw li).2
  have lyn := (Grid.lo_le h1 hh lj).2
  unfold localLo localHi at *
  have rn := hfr xn yn (by omega) (by omega)
  have rm := hfr xm ym (by omega) (by omega)
  rw [n6] at rn
  rw [m6] at rm
  have hmm : lmn i j ≤ lmx i j := by rw [← m6]; exact n1 xm ym m2 m3 m4 m5
  show Spec (BlockMinMax.thresholdBlock t minimumSpread scaleMul u down b i j input output) h2 _
  unfold BlockMinMax.thresholdBlock
  rw [esw, esh, ebw, ebh, bounds_eq h1 hw hvi.widthLt hi, bounds_eq h1 hh hvi.heightLt hj,
    localRange_eq hvi.widthLt hi, localRange_eq hvi.heightLt hj]
  simp only
  -- every pixel of a local block is in the local rectangle
  have hpix : ∀ bi bj x y, Grid.first u i ≤ bi → bi ≤ Grid.last u input.width req i → Grid.first u j ≤ bj →
      bj ≤ Grid.last u input.height req j → Grid.Has input.width req bi x → Grid.Has input.height req bj y →
      lmn i j ≤ f x y ∧ f x y ≤ lmx i j ∧ t.InRange (f x y) := by
    intro bi bj x y c1 c2 c3 c4 c5 c6
    have d1 := Grid.has_sub h1 hw c1 c2 li c5
    have d2 := Grid.has_sub h1 hh c3 c4 lj c6
    exact ⟨n1 x y d1.1 d1.2 d2.1 d2.2, m1 x y d1.1 d1.2 d2.1 d2.2, hfr x y (by omega) (by omega)⟩
  have hst : ∀ bi bj, Grid.first u i ≤ bi → bi ≤ Grid.last u input.width req i → Grid.first u j ≤ bj →
      bj ≤ Grid.last u input.height req j → lmn i j ≤ mn bi bj ∧ mx bi bj ≤ lmx i j := by
    intro bi bj c1 c2 c3 c4
    obtain ⟨_, x, y, q1, q2, q3, q4, q5⟩ := hex.mn bi bj (by omega) (by omega)
    obtain ⟨_, x', y', q1', q2', q3', q4', q5'⟩ := hex.mx bi bj (by omega) (by omega)
    have e1 := hpix bi bj x y c1 c2 c3 c4 ⟨q1, q2⟩ ⟨q3, q4⟩
    have e2 := hpix bi bj x' y' c1 c2 c3 c4 ⟨q1', q2'⟩ ⟨q3', q4'⟩
    omega
  have hfold : Spec (M.loopS (Grid.last u input.height req j + 1 - Grid.first u j) (t.hi, t.lo) (fun j' mm =>
      M.loopS (Grid.last u input.width req i + 1 - Grid.first u i) mm (fun i' mm => do
        let localMin ← b.stats.at' (Grid.first u i + i') (Grid.first u j + j') 0
        let localMax ← b.stats.at' (Grid.first u i + i') (Grid.first u j + j') 1
        pure (if localMin < mm.1 then localMin else mm.1, if localMax > mm.2 then localMax else mm.2)))) h2
      (fun mm h' => mm = (lmn i j, lmx i j) ∧ h' = h2) := by
    refine Spec.conseq (Spec.loopS (fun k mm h' => (lmn i j ≤ mm.1 ∧ mm.2 ≤ lmx i j ∧
      ∀ bi bj, Grid.first u i ≤ bi → bi ≤ Grid.last u input.width req i → Grid.first u j ≤ bj → bj < Grid.first u j + k →
        mm.1 ≤ mn bi bj ∧ mx bi bj ≤ mm.2) ∧ h' = h2)
      ⟨⟨rn.2, rm.1, fun bi bj _ _ _ _ => by omega⟩, rfl⟩ ?_) ?_
    · rintro k mm h' hk ⟨⟨q1, q2, q4⟩, rfl⟩
      refine Spec.conseq (Spec.loopS (fun l mm h1 => (lmn i j ≤ mm.1 ∧ mm.2 ≤ lmx i j ∧
        ∀ bi bj, Grid.first u i ≤ bi → bi ≤ Grid.last u input.width req i → Grid.first u j ≤ bj →
          (bj < Grid.first u j + k ∨ (bj = Grid.first u j + k ∧ bi < Grid.first u i + l)) →
          mm.1 ≤ mn bi bj ∧ mx bi bj ≤ mm.2) ∧ h1 = h')
        ⟨⟨q1, q2, fun x' y' c1 c2 c3 c4 => q4 x' y' c1 c2 c3 (by omega)⟩, rfl⟩ ?_) ?_
      · rintro l mm h1 hl ⟨⟨r1, r2, r4⟩, rfl⟩
        have p := hst (Grid.first u i + l) (Grid.first u j + k) (by omega) (by omega) (by omega) (by omega)
        refine Spec.bind_eq (hsv.at_run hss (x := Grid.first u i + l) (y := Grid.first u j + k) (b := 0) (by omega) (by omega) (by omega)) ?_
        refine Spec.bind_eq (hsv.at_run hss (x := Grid.first u i + l) (y := Grid.first u j + k) (b := 1) (by omega) (by omega) (by omega)) ?_
        simp only [if_true, Nat.one_ne_zero, if_false]
        refine Spec.pure ⟨⟨?_, ?_, ?_⟩, rfl⟩
        · simp only; split <;> omega
        · simp only; split <;> omega
        · intro bi bj c1 c2 c3 c4
          simp only
          by_cases e : bi = Grid.first u i + l ∧ bj = Grid.first u j + k
          · obtain ⟨rfl, rfl⟩ := e
            constructor
            · split <;> omega
            · split <;> omega
          · have := r4 bi bj c1 c2 c3 (by omega)
            constructor
            · split <;> omega
            · split <;> omega
      · rintro mm h1 ⟨⟨r1, r2, r4⟩, rfl⟩
        exact ⟨⟨r1, r2, fun x' y' c1 c2 c3 c4 => r4 x' y' c1 c2 c3 (by omega)⟩, rfl⟩
    · rintro mm h' ⟨⟨r1, r2, r4⟩, rfl⟩
      refine ⟨?_, rfl⟩
      obtain ⟨bx, u1, u2, u3⟩ := Grid.has_between h1 hw (by omega) li n2 n3
      obtain ⟨by', v1, v2, v3⟩ := Grid.has_between h1 hh (by omega) lj n4 n5
      have g1 := (hex.mn bx by' (by omega) (by omega)).1 xn yn u3.1 u3.2 v3.1 v3.2
      have g2 := (r4 bx by' u1 u2 v1 (by omega)).1
      obtain ⟨bx', u1', u2', u3'⟩ := Grid.has_between h1 hw (by omega) li m2 m3
      obtain ⟨by'', v1', v2', v3'⟩ := Grid.has_between h1 hh (by omega) lj m4 m5
      have g1' := (hex.mx bx' by'' (by omega) (by omega)).1 xm ym u3'.1 u3'.2 v3'.1 v3'.2
      have g2' := (r4 bx' by'' u1' u2' v1' (by omega)).2
      have e1 : mm.1 = lmn i j := by omega
      have e2 : mm.2 = lmx i j := by omega
      rw [← e1, ← e2]
  refine Spec.bind hfold ?_
  rintro mm h' ⟨rfl, rfl⟩
  refine Spec.bind_eq (toInt_ok hspread h') ?_
  simp only
  have hp32 : t.promote = S32 := by rcases ht with rfl | rfl | rfl <;> decide
  have hlim : -32768 ≤ t.lo ∧ t.hi ≤ 65535 := by rcases ht with rfl | rfl | rfl <;> decide
  have hle : ∀ a c : Int, -2000000 ≤ a → a ≤ 2000000 → (t.sumType.signed = false → 0 ≤ a) → BlockMinMax.leSum t a c = decide (a ≤ c) := by
    intro a c q1 q2 q3
    unfold BlockMinMax.leSum
    split
    · rfl
    · rename_i hs
      rw [toU32_of_nonneg (q3 (by simpa using hs)) (by unfold P32; omega),
        Int.toNat_of_nonneg (q3 (by simpa using hs))]
  have hsg : t.sumType.signed = false → 0 ≤ t.lo := by rcases ht with rfl | rfl | rfl <;> decide
  have hd : ∀ h3 : Heap Int, (t.promote.arith (lmx i j - lmn i j) : M Int Int) h3 = .ok (lmx i j - lmn i j) h3 := by
    intro h3
    rw [hp32]
    refine IntTy.arith_run (by decide) ⟨?_, ?_⟩ h3
    · show (-2147483648 : Int) ≤ _; have := rn.2; have := rm.1; have := rn.1; have := rm.2; omega
    · show _ ≤ (2147483647 : Int); have := rn.2; have := rm.1; have := rn.1; have := rm.2; omega
  have hs : ∀ h3 : Heap Int, (t.promote.arith (lmx i j + lmn i j) : M Int Int) h3 = .ok (lmx i j + lmn i j) h3 := by
    intro h3
    rw [hp32]
    refine IntTy.arith_run (by decide) ⟨?_, ?_⟩ h3
    · show (-2147483648 : Int) ≤ _; have := rn.2; have := rm.1; have := rn.1; have := rm.2; omega
    · show _ ≤ (2147483647 : Int); have := rn.2; have := rm.1; have := rn.1; have := rm.2; omega
  have hhalf : t.InRange ((lmx i j + lmn i j).tdiv 2) := by
    have q1 := rn.1; have q2 := rm.2
    have := tdiv_between (n := 2) (s := lmx i j + lmn i j) (lo := t.lo) (hi := t.hi) (by decide) (by omega) (by omega)
    exact ⟨this.1, this.2⟩
  refine Spec.conseq (thresh_paint (dec := fun v => if lmx i j - lmn i j ≤ truncK minimumSpread then 1
        else b2i (down == decide (v ≤ truncK (scaleMul ((lmx i j + lmn i j).tdiv 2)))))
    hov hr hp ew eh a2 b2 ?_ ?_ ?_) ?_
  · intro x y hx0 hx1 hy0 hy1
    exact hP x y ⟨⟨hx0, hx1⟩, ⟨hy0, hy1⟩⟩
  · intro x y hx0 hx1 hy0 hy1
    have e1 : i = Grid.blockOf input.width req x := (Grid.has_iff h1 hw (by omega) hi).mp ⟨hx0, hx1⟩
    have e2 : j = Grid.blockOf input.height req y := (Grid.has_iff h1 hh (by omega) hj).mp ⟨hy0, hy1⟩
    simp only [← e1, ← e2]
  · intro y k h3 hy0 hy1 hk hrd
    have rf := hfr (Grid.lo input.width req i + k) y (by omega) (by omega)
    have rf1 := rf.1
    have rf2 := rf.2
    have rn1 := rn.1; have rn2 := rn.2; have rm1 := rm.1; have rm2 := rm.2
    rw [(hvi.addr_from (by omega) (by omega)).1, (hov.addr_from (by omega) (by omega)).1]
    refine (M.bind_ok (hd h3)).trans ?_
    rw [hle _ _ (by omega) (by omega) (fun _ => by omega)]
    by_cases e : lmx i j - lmn i j ≤ truncK minimumSpread
    · rw [if_pos (by simpa using e)]
      simp only [if_pos e]
    · rw [if_neg (by simpa using e)]
      simp only [if_neg e]
      refine (M.bind_ok (hs h3)).trans ?_
      refine (M.bind_ok (toInt_ok (hscale _ hhalf) h3)).trans ?_
      refine (M.bind_ok hrd).trans ?_
      rw [hle _ _ (by omega) (by omega) (fun hh => by have := hsg hh; omega)]
  · intro _ h3 hp3
    exact hp3.sel_iff (fun x y _ _ => by unfold InBlock Grid.Has; tauto)

end Boof
