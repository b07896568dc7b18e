import Verif.Model.BlocksFloat
import Verif.Spec.BlocksFloat
import Verif.Proofs.BlockMinMax
import Verif.Proofs.Kernel
import Mathlib.Tactic.Order
namespace Boof
variable {V : Type}

/-! ### block mean -/

/-- A loop that only reads is a fold. -/
theorem loop_foldN {β : Type} {h : Heap V} {n : Nat} {body : Nat → β → M V β} {step : Nat → β → β}
    (hb : ∀ i s, i < n → body i s h = .ok (step i s) h) (s : β) : M.loopS n s body h = .ok (foldN step n s) h := by
  induction n with
  | zero => rfl
  | succ n ih =>
    show (M.loopS n s body >>= fun s => body n s) h = _
    refine (M.bind_ok (ih (fun i s hi => hb i s (by omega)))).trans ?_
    exact hb n _ (by omega)

theorem meanF_statsOk {A : MeanOps V} {useLocal down : Bool} {st : Interleaved} (hnb : st.numBands = 1) {input : Gray}
    {f : Nat → Nat → V} {req : Nat} (h1 : 1 ≤ req) (hw : req ≤ input.width) (hh : req ≤ input.height) :
    StatsOk (BlockMeanF.ops A useLocal down) st input f req (fun _ => True)
      (fun i j _ => meanStatF A.add A.zero A.scaled input.width input.height req f i j) := by
  intro i j h hi hj hv hf hne idx hidx hcell
  obtain ⟨a1, a2⟩ := Grid.lo_le h1 hw hi
  obtain ⟨b1, b2⟩ := Grid.lo_le h1 hh hj
  show Spec (BlockMeanF.blockStats A st _ _ _ _ _ input) h _
  unfold BlockMeanF.blockStats
  refine Spec.bind_eq (loop_foldN (step := fun y s => foldN (fun x s => A.add s (f (Grid.lo input.width req i + x)
    (Grid.lo input.height req j + y))) (Grid.hi input.width req i - Grid.lo input.width req i) s) (fun y s hy => ?_) _) ?_
  · refine loop_foldN (fun k s hk => ?_) s
    rw [(hv.addr_from (by omega) (by omega)).1]
    exact M.bind_ok (M.rd_run (hf _ _ (by omega) (by omega)))
  have harea : wrap32 ((Grid.hi input.width req i - Grid.lo input.width req i) *
      (Grid.hi input.height req j - Grid.lo input.height req j)) =
      (Grid.hi input.width req i - Grid.lo input.width req i) * (Grid.hi input.height req j - Grid.lo input.height req j) :=
    wrap32_of_lt (Nat.lt_of_le_of_lt (Nat.mul_le_mul (by omega) (by omega)) hv.area_lt)
  rw [harea, hnb]
  obtain ⟨v, hv', _⟩ := hcell 0 (by omega)
  exact (CellsSet.refl h st.buf idx _).wr (Nat.le_refl _) ⟨v, hv'⟩ rfl

theorem meanF_threshOk {A : MeanOps V} {u down : Bool}
    {b : Blocks} (hnb : b.stats.numBands = 1) {input output : Gray} {f : Nat → Nat → V} {req : Nat} (h1 : 1 ≤ req)
    (hw : req ≤ input.width) (hh : req ≤ input.height) (ew : output.width = input.width) (eh : output.height = input.height)
    (ebw : b.blockWidth = Grid.size input.width req) (ebh : b.blockHeight = Grid.size input.height req)
    (esw : b.stats.width = Grid.count input.width req) (esh : b.stats.height = Grid.count input.height req)
    {S : Nat → Nat → V} :
    ThreshOk (BlockMeanF.ops A u down) b input output f req (fun i j _ => S i j)
      (fun x y => A.bit (down == A.le (f x y) (localMeanF A.add A.zero A.divide u input.width input.height req S
        (Grid.blockOf input.width req x) (Grid.blockOf input.height req y)))) := by
  intro i j h h1' h2 P hi hj hsv hss hov hr hp hP
  have hvi := hr.valid
  obtain ⟨a1, a2⟩ := Grid.lo_le h1 hw hi
  obtain ⟨b1, b2⟩ := Grid.lo_le h1 hh hj
  have li := Grid.last_lt (u := u) hi
  have lj := Grid.last_lt (u := u) hj
  have fi := Grid.first_le u i
  have fj := Grid.first_le u j
  have li2 := Grid.le_last (u := u) hi
  have lj2 := Grid.le_last (u := u) hj
  have ti := last_sub_first_le (u := u) (n := input.width) (req := req) (b := i)
  have tj := last_sub_first_le (u := u) (n := input.height) (req := req) (b := j)
  show Spec (BlockMeanF.thresholdBlock A u down b i j input output) h2 _
  unfold BlockMeanF.thresholdBlock
  rw [esw, esh, ebw, ebh, bounds_eq h1 hw hvi.widthLt hi, bounds_eq h1 hh hvi.heightLt hj,
    localRange_eq hvi.widthLt hi, localRange_eq hvi.heightLt hj]
  simp only
  refine Spec.bind_eq (loop_foldN (step := fun y s => foldN (fun x s => A.add s (S (Grid.first u i + x)
    (Grid.first u j + y))) (Grid.last u input.width req i + 1 - Grid.first u i) s) (fun y s hy => ?_) _) ?_
  · refine loop_foldN (fun k s hk => ?_) s
    have hx' : Grid.first u i + k < b.stats.width := by omega
    have hy' : Grid.first u j + y < b.stats.height := by omega
    rw [hsv.index_eq hx' hy' (b := 0) (by omega)]
    exact M.bind_ok (M.rd_run (hss _ _ 0 hx' hy' (by omega)))
  have h9 : (Grid.last u input.width req i + 1 - Grid.first u i) * (Grid.last u input.height req j + 1 - Grid.first u j) ≤ 9 :=
    Nat.le_trans (Nat.mul_le_mul ti tj) (by decide)
  have ewr : wrap32 ((Grid.last u input.height req j - Grid.first u j + 1) * (Grid.last u input.width req i - Grid.first u i + 1)) =
      (Grid.last u input.width req i + 1 - Grid.first u i) * (Grid.last u input.height req j + 1 - Grid.first u j) := by
    rw [show Grid.last u input.height req j - Grid.first u j + 1 = Grid.last u input.height req j + 1 - Grid.first u j by omega,
      show Grid.last u input.width req i - Grid.first u i + 1 = Grid.last u input.width req i + 1 - Grid.first u i by omega,
      Nat.mul_comm, wrap32_of_lt (by unfold P32; omega)]
  rw [ewr]
  refine Spec.conseq (thresh_paint (dec := fun v => A.bit (down == A.le v (localMeanF A.add A.zero A.divide u input.width
      input.height req S i j))) hov hr hp ew eh a2 b2 ?_ ?_ ?_) ?_
  · intro x y hx0 hx1 hy0 hy1
    exact hP x y ⟨⟨hx0, hx1⟩, ⟨hy0, hy1⟩⟩
  · intro x y hx0 hx1 hy0 hy1
    have e1 : i = Grid.blockOf input.width req x := (Grid.has_iff h1 hw (by omega) hi).mp ⟨hx0, hx1⟩
    have e2 : j = Grid.blockOf input.height req y := (Grid.has_iff h1 hh (by omega) hj).mp ⟨hy0, hy1⟩
    rw [← e1, ← e2]
  · intro y k h3 hy0 hy1 hk hrd
    rw [(hvi.addr_from (by omega) (by omega)).1, (hov.addr_from (by omega) (by omega)).1]
    exact M.bind_ok hrd
  · intro _ h3 hp3
    exact hp3.sel_iff (fun x y _ _ => by unfold InBlock Grid.Has; tauto)

/-- With exact arithmetic the fold is the sum. -/
theorem rectFold_add {K : Type} [Field K] (f : Nat → Nat → K) (x0 x1 y0 y1 : Nat) :
    rectFold (· + ·) 0 f x0 x1 y0 y1 = rectSumK f x0 x1 y0 y1 := by
  have row : ∀ (n : Nat) (g : Nat → K) (s : K), foldN (fun x s => s + g x) n s = s + sumF n g := by
    intro n g s
    induction n with
    | zero => simp [foldN, sumF]
    | succ n ih => simp only [foldN, sumF]; rw [ih, add_assoc]
  unfold rectFold rectSumK
  simp only [row]
  rw [zero_add]

/-! ### block min-max -/
section
variable [LinearOrder V]

theorem exists_min_finV (g : Nat → V) (n : Nat) : ∃ k, k ≤ n ∧ ∀ j, j ≤ n → g k ≤ g j := by
  induction n with
  | zero => exact ⟨0, Nat.le_refl _, fun j hj => by rw [Nat.le_zero.mp hj]⟩
  | succ n ih =>
    obtain ⟨k, hk, hm⟩ := ih
    by_cases e : g k ≤ g (n+1)
    · refine ⟨k, by omega, fun j hj => ?_⟩
      by_cases e' : j = n + 1
      · rw [e']; exact e
      · exact hm j (by omega)
    · refine ⟨n+1, Nat.le_refl _, fun j hj => ?_⟩
      by_cases e' : j = n + 1
      · rw [e']
      · have := hm j (by omega); order

theorem exists_rectMinV (f : Nat → Nat → V) {x0 x1 y0 y1 : Nat} (hx : x0 < x1) (hy : y0 < y1) :
    ∃ m, IsRectMin f x0 x1 y0 y1 m := by
  have hrow : ∀ y, ∃ k, x0 + k < x1 ∧ ∀ x, x0 ≤ x → x < x1 → f (x0 + k) y ≤ f x y := by
    intro y
    obtain ⟨k, hk, hm⟩ := exists_min_finV (fun k => f (x0 + k) y) (x1 - x0 - 1)
    refine ⟨k, by omega, fun x h1 h2 => ?_⟩
    have := hm (x - x0) (by omega)
    simp only [show x0 + (x - x0) = x by omega] at this
    exact this
  choose col hc hcm using hrow
  obtain ⟨k, hk, hm⟩ := exists_min_finV (fun k => f (x0 + col (y0 + k)) (y0 + k)) (y1 - y0 - 1)
  refine ⟨_, fun x y a b c d => ?_, x0 + col (y0 + k), y0 + k, by omega, hc _, by omega, by omega, rfl⟩
  have h1 := hm (y - y0) (by omega)
  simp only [show y0 + (y - y0) = y by omega] at h1
  exact le_trans h1 (hcm y x a b)

theorem exists_rectMaxV (f : Nat → Nat → V) {x0 x1 y0 y1 : Nat} (hx : x0 < x1) (hy : y0 < y1) :
    ∃ m, IsRectMax f x0 x1 y0 y1 m := exists_rectMinV (V := Vᵒᵈ) f hx hy

theorem IsRectMax.uniqueV {f : Nat → Nat → V} {x0 x1 y0 y1 : Nat} {m m' : V} (h : IsRectMax f x0 x1 y0 y1 m)
    (h' : IsRectMax f x0 x1 y0 y1 m') : m = m' := by
  obtain ⟨h1, x, y, a, b, c, d, e⟩ := h
  obtain ⟨h1', x', y', a', b', c', d', e'⟩ := h'
  have := h1 x' y' a' b' c' d'
  have := h1' x y a b c d
  order

/-- The extremes of the blocks `(i,j)` of the grid. -/
structure ExtremesV (w ht req : Nat) (f : Nat → Nat → V) (mn mx : Nat → Nat → V) : Prop where
  mn : ∀ i j, i < Grid.count w req → j < Grid.count ht req →
    IsRectMin f (Grid.lo w req i) (Grid.hi w req i) (Grid.lo ht req j) (Grid.hi ht req j) (mn i j)
  mx : ∀ i j, i < Grid.count w req → j < Grid.count ht req →
    IsRectMax f (Grid.lo w req i) (Grid.hi w req i) (Grid.lo ht req j) (Grid.hi ht req j) (mx i j)

theorem minmaxF_statsOk {A : MinMaxOps V} {minimumSpread : V} {u down : Bool}
    {st : Interleaved} (hnb : st.numBands = 2) {input : Gray} {f : Nat → Nat → V} {req : Nat} (h1 : 1 ≤ req)
    (hw : req ≤ input.width) (hh : req ≤ input.height) {mn mx : Nat → Nat → V}
    (hex : ExtremesV input.width input.height req f mn mx) :
    StatsOk (BlockMinMaxF.ops A minimumSpread u down) st input f req (fun _ => True)
      (fun i j k => if k = 0 then mn i j else mx i j) := by
  intro i j h hi hj hv hf hne idx hidx hcell
  obtain ⟨a1, a2⟩ := Grid.lo_le h1 hw hi
  obtain ⟨b1, b2⟩ := Grid.lo_le h1 hh hj
  have sw := Grid.le_size h1 hw
  have sh := Grid.le_size h1 hh
  obtain ⟨n1, xn, yn, n2, n3, n4, n5, n6⟩ := hex.mn i j hi hj
  obtain ⟨m1, xm, ym, m2, m3, m4, m5, m6⟩ := hex.mx i j hi hj
  show Spec (BlockMinMaxF.blockStats st _ _ _ _ _ input) h _
  unfold BlockMinMaxF.blockStats
  generalize Grid.lo input.width req i = x0 at *
  generalize Grid.hi input.width req i = x1 at *
  generalize Grid.lo input.height req j = y0 at *
  generalize Grid.hi input.height req j = y1 at *
  refine Spec.bind_eq (hv.at_run hf (x := x0) (y := y0) (by omega) (by omega)) ?_
  have hfold : Spec (M.loopS (y1 - y0) (f x0 y0, f x0 y0) (fun y mm =>
      M.loopS (x1 - x0) mm (fun k mm => do
        let value ← M.rd input.buf (wrap32 (wrap32 (input.offset + (y0 + y) * input.stride + x0) + k))
        if value < mm.1 then pure (value, mm.2)
        else if value > mm.2 then pure (mm.1, value)
        else pure mm))) h (fun mm h' => mm = (mn i j, mx i j) ∧ h' = h) := by
    refine Spec.conseq (Spec.loopS (fun y mm h' => (mn i j ≤ mm.1 ∧ mm.2 ≤ mx i j ∧ mm.1 ≤ mm.2 ∧
      ∀ x' y', x0 ≤ x' → x' < x1 → y0 ≤ y' → y' < y0 + y → mm.1 ≤ f x' y' ∧ f x' y' ≤ mm.2) ∧ h' = h)
      ⟨⟨n1 _ _ (by omega) (by omega) (by omega) (by omega), m1 _ _ (by omega) (by omega) (by omega) (by omega),
        le_refl _, fun x' y' _ _ _ _ => by omega⟩, rfl⟩ ?_) ?_
    · rintro y mm h' hy ⟨⟨q1, q2, q3, q4⟩, rfl⟩
      refine Spec.conseq (Spec.loopS (fun k mm h1 => (mn i j ≤ mm.1 ∧ mm.2 ≤ mx i j ∧ mm.1 ≤ mm.2 ∧
        ∀ x' y', x0 ≤ x' → x' < x1 → y0 ≤ y' → (y' < y0 + y ∨ (y' = y0 + y ∧ x' < x0 + k)) →
          mm.1 ≤ f x' y' ∧ f x' y' ≤ mm.2) ∧ h1 = h')
        ⟨⟨q1, q2, q3, fun x' y' c1 c2 c3 c4 => q4 x' y' c1 c2 c3 (by omega)⟩, rfl⟩ ?_) ?_
      · rintro k mm h1 hk ⟨⟨r1, r2, r3, r4⟩, rfl⟩
        have hrd : M.rd input.buf (wrap32 (wrap32 (input.offset + (y0 + y) * input.stride + x0) + k)) h1 =
            .ok (f (x0 + k) (y0 + y)) h1 := by
          rw [(hv.addr_from (by omega) (by omega)).2]
          exact M.rd_run (hf _ _ (by omega) (by omega))
        refine Spec.bind_eq hrd ?_
        have p1 := n1 (x0 + k) (y0 + y) (by omega) (by omega) (by omega) (by omega)
        have p2 := m1 (x0 + k) (y0 + y) (by omega) (by omega) (by omega) (by omega)
        have hstep : ∀ mm' : V × V, mm'.1 ≤ mm.1 → mm.2 ≤ mm'.2 → mm'.1 ≤ f (x0 + k) (y0 + y) →
            f (x0 + k) (y0 + y) ≤ mm'.2 → ∀ x' y', x0 ≤ x' → x' < x1 → y0 ≤ y' →
            (y' < y0 + y ∨ (y' = y0 + y ∧ x' < x0 + (k + 1))) → mm'.1 ≤ f x' y' ∧ f x' y' ≤ mm'.2 := by
          intro mm' s1 s2 s3 s4 x' y' c1 c2 c3 c4
          by_cases e : y' = y0 + y ∧ x' = x0 + k
          · obtain ⟨rfl, rfl⟩ := e; exact ⟨s3, s4⟩
          · have := r4 x' y' c1 c2 c3 (by omega)
            exact ⟨le_trans s1 this.1, le_trans this.2 s2⟩
        split
        · rename_i hlt
          exact Spec.pure ⟨⟨p1, r2, by simp only; order, hstep _ (by simp only; order) (by simp only; order)
            (by simp only; order) (by simp only; order)⟩, rfl⟩
        · rename_i hlt
          split
          · rename_i hgt
            exact Spec.pure ⟨⟨r1, p2, by simp only; order, hstep _ (by simp only; order) (by simp only; order)
              (by simp only; order) (by simp only; order)⟩, rfl⟩
          · rename_i hgt
            exact Spec.pure ⟨⟨r1, r2, r3, hstep _ (le_refl _) (le_refl _) (by order) (by order)⟩, rfl⟩
      · rintro mm h1 ⟨⟨r1, r2, r3, r4⟩, rfl⟩
        exact ⟨⟨r1, r2, r3, fun x' y' c1 c2 c3 c4 => r4 x' y' c1 c2 c3 (by omega)⟩, rfl⟩
    · rintro mm h' ⟨⟨r1, r2, r3, r4⟩, rfl⟩
      refine ⟨?_, rfl⟩
      have g1 := (r4 xn yn n2 n3 n4 (by omega)).1
      have g2 := (r4 xm ym m2 m3 m4 (by omega)).2
      have e1 : mm.1 = mn i j := by rw [n6] at g1; exact le_antisymm g1 r1
      have e2 : mm.2 = mx i j := by rw [m6] at g2; exact le_antisymm r2 g2
      rw [← e1, ← e2]
  refine Spec.bind hfold ?_
  rintro mm h' ⟨rfl, rfl⟩
  rw [hnb] at hcell hidx ⊢
  obtain ⟨v0, c0, _⟩ := hcell 0 (by omega)
  obtain ⟨v1, c1, _⟩ := hcell 1 (by omega)
  refine Spec.bind ((CellsSet.refl h' st.buf idx (fun k => if k - idx = 0 then mn i j else mx i j)).wr (Nat.le_refl _) ⟨v0, c0⟩
    (by simp)) ?_
  intro _ h2 hs
  rw [wrap32_of_lt (by omega)]
  exact hs.wr (by omega) ⟨v1, by rw [hs.frame _ _ (by omega)]; exact c1⟩ (by simp)

theorem minmaxF_threshOk {A : MinMaxOps V} {minimumSpread : V} {u down : Bool}
    {b : Blocks} (hnb : b.stats.numBands = 2) {input output : Gray} {f : Nat → Nat → V} {req : Nat} (h1 : 1 ≤ req)
    (hw : req ≤ input.width) (hh : req ≤ input.height) (ew : output.width = input.width) (eh : output.height = input.height)
    (ebw : b.blockWidth = Grid.size input.width req) (ebh : b.blockHeight = Grid.size input.height req)
    (esw : b.stats.width = Grid.count input.width req) (esh : b.stats.height = Grid.count input.height req)
    (hhuge : ∀ x y, x < input.width → y < input.height → f x y ≤ A.huge)
    {mn mx lmn lmx : Nat → Nat → V} (hex : ExtremesV input.width input.height req f mn mx)
    (hlmn : ∀ i j, i < Grid.count input.width req → j < Grid.count input.height req →
      IsRectMin f (localLo u input.width req i) (localHi u input.width req i) (localLo u input.height req j)
        (localHi u input.height req j) (lmn i j))
    (hlmx : ∀ i j, i < Grid.count input.width req → j < Grid.count input.height req →
      IsRectMax f (localLo u input.width req i) (localHi u input.width req i) (localLo u input.height req j)
        (localHi u input.height req j) (lmx i j)) :
    ThreshOk (BlockMinMaxF.ops A minimumSpread u down) b input output f req
      (fun i j k => if k = 0 then mn i j else mx i j)
      (fun x y =>
        let i := Grid.blockOf input.width req x
        let j := Grid.blockOf input.height req y
        if A.sub (max (lmx i j) A.tiny) (lmn i j) ≤ minimumSpread then A.bit true
        else A.bit (down == decide (f x y ≤ A.mid (max (lmx i j) A.tiny) (lmn i j)))) := by
  intro i j h h1' h2 P hi hj hsv hss hov hr hp hP
  have hvi := hr.valid
  obtain ⟨a1, a2⟩ := Grid.lo_le h1 hw hi
  obtain ⟨b1, b2⟩ := Grid.lo_le h1 hh hj
  have li := Grid.last_lt (u := u) hi
  have lj := Grid.last_lt (u := u) hj
  have fi := Grid.first_le u i
  have fj := Grid.first_le u j
  have li2 := Grid.le_last (u := u) hi
  have lj2 := Grid.le_last (u := u) hj
  obtain ⟨n1, xn, yn, n2, n3, n4, n5, n6⟩ := hlmn i j hi hj
  obtain ⟨m1, xm, ym, m2, m3, m4, m5, m6⟩ := hlmx i j hi hj
  have lxn := (Grid.lo_le h1 hw li).2
  have lyn := (Grid.lo_le h1 hh lj).2
  unfold localLo localHi at *
  have rn := hhuge xn yn (by omega) (by omega)
  rw [n6] at rn
  show Spec (BlockMinMaxF.thresholdBlock A minimumSpread u down b i j input output) h2 _
  unfold BlockMinMaxF.thresholdBlock
  rw [esw, esh, ebw, ebh, bounds_eq h1 hw hvi.widthLt hi, bounds_eq h1 hh hvi.heightLt hj,
    localRange_eq hvi.widthLt hi, localRange_eq hvi.heightLt hj]
  simp only
  have hpix : ∀ bi bj x y, Grid.first u i ≤ bi → bi ≤ Grid.last u input.width req i → Grid.first u j ≤ bj →
      bj ≤ Grid.last u input.height req j → Grid.Has input.width req bi x → Grid.Has input.height req bj y →
      lmn i j ≤ f x y ∧ f x y ≤ lmx i j := by
    intro bi bj x y c1 c2 c3 c4 c5 c6
    have d1 := Grid.has_sub h1 hw c1 c2 li c5
    have d2 := Grid.has_sub h1 hh c3 c4 lj c6
    exact ⟨n1 x y d1.1 d1.2 d2.1 d2.2, m1 x y d1.1 d1.2 d2.1 d2.2⟩
  have hst : ∀ bi bj, Grid.first u i ≤ bi → bi ≤ Grid.last u input.width req i → Grid.first u j ≤ bj →
      bj ≤ Grid.last u input.height req j → lmn i j ≤ mn bi bj ∧ mx bi bj ≤ lmx i j := by
    intro bi bj c1 c2 c3 c4
    obtain ⟨_, x, y, q1, q2, q3, q4, q5⟩ := hex.mn bi bj (by omega) (by omega)
    obtain ⟨_, x', y', q1', q2', q3', q4', q5'⟩ := hex.mx bi bj (by omega) (by omega)
    have e1 := hpix bi bj x y c1 c2 c3 c4 ⟨q1, q2⟩ ⟨q3, q4⟩
    have e2 := hpix bi bj x' y' c1 c2 c3 c4 ⟨q1', q2'⟩ ⟨q3', q4'⟩
    rw [← q5, ← q5']
    exact ⟨e1.1, e2.2⟩
  have hfold : Spec (M.loopS (Grid.last u input.height req j + 1 - Grid.first u j) (A.huge, A.tiny) (fun j' mm =>
      M.loopS (Grid.last u input.width req i + 1 - Grid.first u i) mm (fun i' mm => do
        let localMin ← b.stats.at' (Grid.first u i + i') (Grid.first u j + j') 0
        let localMax ← b.stats.at' (Grid.first u i + i') (Grid.first u j + j') 1
        pure (if localMin < mm.1 then localMin else mm.1, if localMax > mm.2 then localMax else mm.2)))) h2
      (fun mm h' => mm = (lmn i j, max (lmx i j) A.tiny) ∧ h' = h2) := by
    refine Spec.conseq (Spec.loopS (fun k mm h' => (lmn i j ≤ mm.1 ∧ mm.2 ≤ max (lmx i j) A.tiny ∧ A.tiny ≤ mm.2 ∧
      ∀ bi bj, Grid.first u i ≤ bi → bi ≤ Grid.last u input.width req i → Grid.first u j ≤ bj → bj < Grid.first u j + k →
        mm.1 ≤ mn bi bj ∧ mx bi bj ≤ mm.2) ∧ h' = h2)
      ⟨⟨rn, le_max_right _ _, le_refl _, fun bi bj _ _ _ _ => by omega⟩, rfl⟩ ?_) ?_
    · rintro k mm h' hk ⟨⟨q1, q2, q3, q4⟩, rfl⟩
      refine Spec.conseq (Spec.loopS (fun l mm h1 => (lmn i j ≤ mm.1 ∧ mm.2 ≤ max (lmx i j) A.tiny ∧ A.tiny ≤ mm.2 ∧
        ∀ bi bj, Grid.first u i ≤ bi → bi ≤ Grid.last u input.width req i → Grid.first u j ≤ bj →
          (bj < Grid.first u j + k ∨ (bj = Grid.first u j + k ∧ bi < Grid.first u i + l)) →
          mm.1 ≤ mn bi bj ∧ mx bi bj ≤ mm.2) ∧ h1 = h')
        ⟨⟨q1, q2, q3, fun x' y' c1 c2 c3 c4 => q4 x' y' c1 c2 c3 (by omega)⟩, rfl⟩ ?_) ?_
      · rintro l mm h1 hl ⟨⟨r1, r2, r3, r4⟩, rfl⟩
        have p := hst (Grid.first u i + l) (Grid.first u j + k) (by omega) (by omega) (by omega) (by omega)
        refine Spec.bind_eq (hsv.at_run hss (x := Grid.first u i + l) (y := Grid.first u j + k) (b := 0) (by omega) (by omega) (by omega)) ?_
        refine Spec.bind_eq (hsv.at_run hss (x := Grid.first u i + l) (y := Grid.first u j + k) (b := 1) (by omega) (by omega) (by omega)) ?_
        simp only [if_true, Nat.one_ne_zero, if_false]
        have pm := le_trans p.2 (le_max_left (lmx i j) A.tiny)
        refine Spec.pure ⟨⟨?_, ?_, ?_, ?_⟩, rfl⟩
        · simp only; split
          · exact p.1
          · exact r1
        · simp only; split
          · exact pm
          · exact r2
        · simp only; split
          · order
          · exact r3
        · intro bi bj c1 c2 c3 c4
          simp only
          by_cases e : bi = Grid.first u i + l ∧ bj = Grid.first u j + k
          · obtain ⟨rfl, rfl⟩ := e
            constructor
            · split <;> order
            · split <;> order
          · have := r4 bi bj c1 c2 c3 (by omega)
            constructor
            · split
              · exact le_trans (le_of_lt (by assumption)) this.1
              · exact this.1
            · split
              · exact le_trans this.2 (le_of_lt (by assumption))
              · exact this.2
      · rintro mm h1 ⟨⟨r1, r2, r3, r4⟩, rfl⟩
        exact ⟨⟨r1, r2, r3, fun x' y' c1 c2 c3 c4 => r4 x' y' c1 c2 c3 (by omega)⟩, rfl⟩
    · rintro mm h' ⟨⟨r1, r2, r3, r4⟩, rfl⟩
      refine ⟨?_, rfl⟩
      obtain ⟨bx, u1, u2, u3⟩ := Grid.has_between h1 hw (by omega) li n2 n3
      obtain ⟨by', v1, v2, v3⟩ := Grid.has_between h1 hh (by omega) lj n4 n5
      have g1 := (hex.mn bx by' (by omega) (by omega)).1 xn yn u3.1 u3.2 v3.1 v3.2
      have g2 := (r4 bx by' u1 u2 v1 (by omega)).1
      obtain ⟨bx', u1', u2', u3'⟩ := Grid.has_between h1 hw (by omega) li m2 m3
      obtain ⟨by'', v1', v2', v3'⟩ := Grid.has_between h1 hh (by omega) lj m4 m5
      have g1' := (hex.mx bx' by'' (by omega) (by omega)).1 xm ym u3'.1 u3'.2 v3'.1 v3'.2
      have g2' := (r4 bx' by'' u1' u2' v1' (by omega)).2
      have e1 : mm.1 = lmn i j := le_antisymm (by rw [← n6]; exact le_trans g2 g1) r1
      have e2 : mm.2 = max (lmx i j) A.tiny := le_antisymm r2 (max_le (by rw [← m6]; exact le_trans g1' g2') r3)
      rw [← e1, ← e2]
  refine Spec.bind hfold ?_
  rintro mm h' ⟨rfl, rfl⟩
  simp only
  refine Spec.conseq (thresh_paint (dec := fun v => if A.sub (max (lmx i j) A.tiny) (lmn i j) ≤ minimumSpread then A.bit true
        else A.bit (down == decide (v ≤ A.mid (max (lmx i j) A.tiny) (lmn i j))))
    hov hr hp ew eh a2 b2 ?_ ?_ ?_) ?_
  · intro x y hx0 hx1 hy0 hy1
    exact hP x y ⟨⟨hx0, hx1⟩, ⟨hy0, hy1⟩⟩
  · intro x y hx0 hx1 hy0 hy1
    have e1 : i = Grid.blockOf input.width req x := (Grid.has_iff h1 hw (by omega) hi).mp ⟨hx0, hx1⟩
    have e2 : j = Grid.blockOf input.height req y := (Grid.has_iff h1 hh (by omega) hj).mp ⟨hy0, hy1⟩
    simp only [← e1, ← e2]
  · intro y k h3 hy0 hy1 hk hrd
    rw [(hvi.addr_from (by omega) (by omega)).1, (hov.addr_from (by omega) (by omega)).1]
    by_cases e : A.sub (max (lmx i j) A.tiny) (lmn i j) ≤ minimumSpread
    · simp only [if_pos e]
    · simp only [if_neg e]
      exact M.bind_ok hrd
  · intro _ h3 hp3
    exact hp3.sel_iff (fun x y _ _ => by unfold InBlock Grid.Has; tauto)

end
end Boof
