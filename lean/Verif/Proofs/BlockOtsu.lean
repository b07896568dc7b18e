import Verif.Proofs.BlockMinMax
import Verif.Props.Otsu
namespace Boof
variable {V : Type} {K : Type} [Field K] [LinearOrder K] [IsStrictOrderedRing K] [FloorRing K]

theorem CellsSet.update {h h1 : Heap V} {b lo hi i : Nat} {v w : Nat → V} {x : V} (hs : CellsSet h h1 b lo hi v) (hlo : lo ≤ i)
    (hhi : i < hi) (hw : ∀ k, lo ≤ k → k < hi → w k = if k = i then x else v k) :
    Spec (M.wr b i x) h1 (fun _ h2 => CellsSet h h2 b lo hi w) := by
  have hc := hs.cells i hlo hhi
  refine Spec.of_eq (M.wr_run hc) ⟨?_, ?_, ?_, by rw [Heap.next_setCell, hs.next]⟩
  · intro k h1 h2
    rw [Heap.cell_setCell hc, hw k h1 h2]
    by_cases e : k = i
    · rw [if_pos ⟨rfl, e⟩, if_pos e]
    · rw [if_neg (fun q => e q.2), if_neg e, hs.cells k h1 h2]
  · intro b' k hn
    rw [Heap.cell_setCell hc, if_neg (fun ⟨q1, q2⟩ => hn ⟨q1, by omega, by omega⟩), hs.frame b' k hn]
  · intro b'
    by_cases e : b' = b
    · subst e
      obtain ⟨l, hl⟩ : ∃ l, h1.get b' = some l := by
        cases hg : h1.get b' with
        | none => simp [Heap.cell, hg] at hc
        | some l => exact ⟨l, rfl⟩
      rw [Heap.get_setCell_same hl, ← hs.alive b', hl]; rfl
    · rw [Heap.get_setCell_ne e, hs.alive]

theorem prefixSum_row {w : Nat} {f : Nat → Nat → Int} {y : Nat} : prefixSum w f y w = prefixSum w f (y+1) 0 := by
  unfold prefixSum; simp [sumN]

theorem prefixSum_step {w : Nat} {f : Nat → Nat → Int} {y x : Nat} : prefixSum w f y (x+1) = prefixSum w f y x + f x y := by
  unfold prefixSum; simp only [sumN]; omega

theorem prefixSum_end {w n : Nat} {f : Nat → Nat → Int} : prefixSum w f n 0 = pixelSum w n f := by
  unfold prefixSum pixelSum; simp [sumN]

/-- Non-negative terms: a prefix is at most the whole. -/
theorem prefixSum_le_sum {w n : Nat} {f : Nat → Nat → Int} (h0 : ∀ x y, x < w → y < n → 0 ≤ f x y) {y x : Nat} (hy : y < n)
    (hx : x ≤ w) : 0 ≤ prefixSum w f y x ∧ prefixSum w f y x ≤ pixelSum w n f := by
  have hrow : ∀ y, y < n → 0 ≤ sumN w (fun k => f k y) := fun y hy => sumN_nonneg (fun k hk => h0 k y hk hy)
  have b1 : sumN x (fun k => f k y) ≤ sumN w (fun k => f k y) := sumN_mono_n hx (fun i hi => h0 i y hi hy)
  have b2 : sumN (y+1) (fun y' => sumN w (fun k => f k y')) ≤ pixelSum w n f := sumN_mono_n hy (fun i hi => hrow i hi)
  have b3 : 0 ≤ sumN y (fun y' => sumN w (fun k => f k y')) := sumN_nonneg (fun i hi => hrow i (by omega))
  have b4 : 0 ≤ sumN x (fun k => f k y) := sumN_nonneg (fun i hi => h0 i y (by omega) hy)
  have b5 : sumN (y+1) (fun y' => sumN w (fun k => f k y')) = sumN y (fun y' => sumN w (fun k => f k y')) + sumN w (fun k => f k y) := rfl
  unfold prefixSum
  exact ⟨by omega, by omega⟩

theorem rectCount_le (f : Nat → Nat → Int) (v : Int) (x0 x1 y0 y1 : Nat) :
    0 ≤ rectCount f v x0 x1 y0 y1 ∧ rectCount f v x0 x1 y0 y1 ≤ ((x1 - x0) * (y1 - y0) : Nat) := by
  constructor
  · have := le_pixelSum (w := x1 - x0) (h := y1 - y0) (c := 0) (f := fun x y => if f (x0 + x) (y0 + y) = v then 1 else 0)
      (fun x y _ _ => by show (0 : Int) ≤ if _ then 1 else 0; split <;> omega)
    simpa [rectCount, rectSum] using this
  · have := pixelSum_le (w := x1 - x0) (h := y1 - y0) (c := 1) (f := fun x y => if f (x0 + x) (y0 + y) = v then 1 else 0)
      (fun x y _ _ => by show (if _ then (1:Int) else 0) ≤ 1; split <;> omega)
    simpa [rectCount, rectSum] using this

/-- Sums over consecutive blocks add up to the sum over their union. -/
theorem sum_blocks {n req : Nat} (h1 : 1 ≤ req) (h2 : req ≤ n) (g : Nat → Int) {a c : Nat} (hac : a ≤ c)
    (hc : c < Grid.count n req) :
    sumN (c + 1 - a) (fun b => sumN (Grid.hi n req (a + b) - Grid.lo n req (a + b)) (fun x => g (Grid.lo n req (a + b) + x))) =
      sumN (Grid.hi n req c - Grid.lo n req a) (fun x => g (Grid.lo n req a + x)) := by
  obtain ⟨d, rfl⟩ : ∃ d, c = a + d := ⟨c - a, by omega⟩
  induction d with
  | zero =>
    rw [show a + 0 + 1 - a = 1 by omega]
    simp [sumN]
  | succ d ih =>
    have ih := ih (by omega) (by omega)
    rw [show a + (d + 1) + 1 - a = (a + d + 1 - a) + 1 by omega]
    show sumN (a + d + 1 - a) _ + _ = _
    rw [ih]
    beta_reduce
    have e1 : Grid.hi n req (a + d) = Grid.lo n req (a + d + 1) := Grid.hi_eq (by omega)
    have l1 := Grid.lo_mono (n := n) (req := req) (show a ≤ a + d + 1 by omega)
    have l2 := (Grid.lo_le h1 h2 hc).1
    rw [← Nat.add_assoc] at l2
    have e2 : a + (a + d + 1 - a) = a + d + 1 := by omega
    rw [e2, e1, ← Nat.add_assoc]
    rw [sumN_split (fun x => g (Grid.lo n req a + x)) (m := Grid.lo n req (a + d + 1) - Grid.lo n req a)
      (n := Grid.hi n req (a + d + 1) - Grid.lo n req a) (by omega)]
    congr 1
    rw [show Grid.hi n req (a + d + 1) - Grid.lo n req a - (Grid.lo n req (a + d + 1) - Grid.lo n req a) =
      Grid.hi n req (a + d + 1) - Grid.lo n req (a + d + 1) by omega]
    apply sumN_congr
    intro x _
    rw [show Grid.lo n req a + (Grid.lo n req (a + d + 1) - Grid.lo n req a + x) = Grid.lo n req (a + d + 1) + x by omega]

/-- The same in two dimensions. -/
theorem rectSum_blocks {w ht req : Nat} (h1 : 1 ≤ req) (hw : req ≤ w) (hh : req ≤ ht) (g : Nat → Nat → Int)
    {a c a' c' : Nat} (hac : a ≤ c) (hc : c < Grid.count w req) (hac' : a' ≤ c') (hc' : c' < Grid.count ht req) :
    rectSum (fun i j => rectSum g (Grid.lo w req i) (Grid.hi w req i) (Grid.lo ht req j) (Grid.hi ht req j)) a (c+1) a' (c'+1) =
      rectSum g (Grid.lo w req a) (Grid.hi w req c) (Grid.lo ht req a') (Grid.hi ht req c') := by
  unfold rectSum pixelSum
  have step : ∀ j, sumN (c + 1 - a) (fun x => sumN (Grid.hi ht req (a' + j) - Grid.lo ht req (a' + j)) (fun y =>
      sumN (Grid.hi w req (a + x) - Grid.lo w req (a + x)) (fun x_1 => g (Grid.lo w req (a + x) + x_1) (Grid.lo ht req (a' + j) + y)))) =
      sumN (Grid.hi ht req (a' + j) - Grid.lo ht req (a' + j)) (fun y =>
        (fun Y => sumN (Grid.hi w req c - Grid.lo w req a) (fun x => g (Grid.lo w req a + x) Y)) (Grid.lo ht req (a' + j) + y)) := by
    intro j
    rw [sumN_comm]
    apply sumN_congr
    intro y _
    exact sum_blocks h1 hw (fun X => g X (Grid.lo ht req (a' + j) + y)) hac hc
  rw [sumN_congr (fun j _ => step j)]
  exact sum_blocks h1 hh (fun Y => sumN (Grid.hi w req c - Grid.lo w req a) (fun x => g (Grid.lo w req a + x) Y)) hac' hc'

theorem otsu_statsOk {compute : GrowArray Int → Nat → M Int Int} {down u : Bool}
    {st : Interleaved} (hnb : st.numBands = 256) {input : Gray} {f : Nat → Nat → Int} {req : Nat} (h1 : 1 ≤ req)
    (hw : req ≤ input.width) (hh : req ≤ input.height)
    (hf : ∀ x y, x < input.width → y < input.height → 0 ≤ f x y ∧ f x y ≤ 255)
    (harea : input.width * input.height < 2147483648) :
    StatsOk (BlockOtsu.opsWith compute down u) st input f req (fun v => v = 0)
      (fun i j k => rectCount f k (Grid.lo input.width req i) (Grid.hi input.width req i)
        (Grid.lo input.height req j) (Grid.hi input.height req j)) := by
  intro i j h hi hj hv hfs hne idx hidx hcell
  obtain ⟨a1, a2⟩ := Grid.lo_le h1 hw hi
  obtain ⟨b1, b2⟩ := Grid.lo_le h1 hh hj
  show Spec (BlockOtsu.blockStats st _ _ _ _ _ input) h _
  unfold BlockOtsu.blockStats
  beta_reduce
  generalize Grid.lo input.width req i = x0 at *
  generalize Grid.hi input.width req i = x1 at *
  generalize Grid.lo input.height req j = y0 at *
  generalize Grid.hi input.height req j = y1 at *
  rw [hnb] at *
  let G : Nat → Nat → Nat → Int := fun k x y => if f (x0 + x) (y0 + y) = (k : Int) then 1 else 0
  have hG : ∀ k x y, 0 ≤ G k x y := fun k x y => by
    show (0 : Int) ≤ if _ then 1 else 0; split <;> omega
  have hGsum : ∀ k, pixelSum (x1 - x0) (y1 - y0) (G k) < 2147483648 := by
    intro k
    have e := (rectCount_le f k x0 x1 y0 y1).2
    have e2 : (x1 - x0) * (y1 - y0) ≤ input.width * input.height := Nat.mul_le_mul (by omega) (by omega)
    have e3 : rectCount f k x0 x1 y0 y1 = pixelSum (x1 - x0) (y1 - y0) (G k) := rfl
    rw [← e3]
    omega
  refine Spec.conseq (Spec.loop (fun y h' => CellsSet h h' st.buf idx (idx + 256)
    (fun k => prefixSum (x1 - x0) (G (k - idx)) y 0)) ?_ ?_) ?_
  · refine ⟨fun k hk1 hk2 => ?_, fun _ _ _ => rfl, fun _ => rfl, rfl⟩
    obtain ⟨v, e, rfl⟩ := hcell (k - idx) (by omega)
    rw [show idx + (k - idx) = k by omega] at e
    rw [e]; rfl
  · intro y h2 hy hs
    refine Spec.conseq (Spec.loop (fun x h' => CellsSet h h' st.buf idx (idx + 256)
      (fun k => prefixSum (x1 - x0) (G (k - idx)) y x)) hs ?_) ?_
    · intro x h3 hx hs3
      obtain ⟨q1, q2⟩ := hf (x0 + x) (y0 + y) (by omega) (by omega)
      have hrd : M.rd input.buf (wrap32 (input.offset + (y0 + y) * input.stride + x0) + x) h3 = .ok (f (x0 + x) (y0 + y)) h3 := by
        rw [(hv.addr_from (by omega) (by omega)).1]
        exact M.rd_run (hs3.shows hfs hne _ _ (by omega) (by omega))
      refine Spec.bind_eq hrd ?_
      rw [IntTy.cast_of_inRange (t := U8) (by decide) ⟨q1, q2⟩]
      generalize hvv : f (x0 + x) (y0 + y) = v at *
      have hcl := hs3.cells (idx + v.toNat) (by omega) (by omega)
      refine Spec.bind_eq (M.rd_run hcl) ?_
      have hkk : idx + v.toNat - idx = v.toNat := by omega
      rw [hkk]
      have hle := prefixSum_le_sum (w := x1 - x0) (n := y1 - y0) (f := G v.toNat) (fun _ _ _ _ => hG _ _ _) hy
        (show x + 1 ≤ x1 - x0 from hx)
      have hst : prefixSum (x1 - x0) (G v.toNat) y (x + 1) = prefixSum (x1 - x0) (G v.toNat) y x + 1 := by
        rw [prefixSum_step]
        have : G v.toNat x y = 1 := if_pos (by rw [hvv]; omega)
        rw [this]
      have hlt := hGsum v.toNat
      refine Spec.bind_eq (IntTy.arith_run (t := S32) (by decide) ⟨?_, ?_⟩ h3) ?_
      · show (-2147483648 : Int) ≤ _; omega
      · show _ ≤ (2147483647 : Int); omega
      refine hs3.update (by omega) (by omega) ?_
      intro k hk1 hk2
      by_cases e : k = idx + v.toNat
      · rw [if_pos e, e, hkk, hst]
      · rw [if_neg e, prefixSum_step]
        have : G (k - idx) x y = 0 := if_neg (by rw [hvv]; omega)
        rw [this]; omega
    · intro _ h3 hs3
      exact hs3.congr (fun k _ _ => prefixSum_row)
  · intro _ h2 hs
    exact hs.congr (fun k _ _ => prefixSum_end)

theorem M.forRange_congr {lo hi : Nat} {f g : Nat → M V Unit} (hfg : ∀ i, lo ≤ i → i < hi → f i = g i) :
    M.forRange lo hi f = M.forRange lo hi g :=
  M.loop_congr (fun i hi => hfg _ (by omega) (by omega))

theorem range_map_get {g : Nat → Int} {n k : Nat} (hk : k < n) : ((List.range n).map g)[k]? = some (g k) := by
  simp [hk]

theorem list_eq_range {l : List Int} {n : Nat} {g : Nat → Int} (hl : l.length = n) (h : ∀ k, k < n → l[k]? = some (g k)) :
    l = (List.range n).map g := by
  apply List.ext_getElem?
  intro k
  by_cases hk : k < n
  · rw [h k hk, range_map_get hk]
  · rw [List.getElem?_eq_none (by omega), List.getElem?_eq_none (by simp; omega)]

theorem otsu_threshOk {compute : GrowArray Int → Nat → M Int Int} {down u : Bool}
    {b : Blocks} (hnb : b.stats.numBands = 256) {input output : Gray} {f : Nat → Nat → Int} {req : Nat} (h1 : 1 ≤ req)
    (hw : req ≤ input.width) (hh : req ≤ input.height) (ew : output.width = input.width) (eh : output.height = input.height)
    (ebw : b.blockWidth = Grid.size input.width req) (ebh : b.blockHeight = Grid.size input.height req)
    (esw : b.stats.width = Grid.count input.width req) (esh : b.stats.height = Grid.count input.height req)
    (hf : ∀ x y, x < input.width → y < input.height → 0 ≤ f x y ∧ f x y ≤ 255)
    (harea : input.width * input.height < 2147483648) {th : Nat → Nat → Int}
    (hth : ∀ i j (h : Heap Int), i < Grid.count input.width req → j < Grid.count input.height req →
      compute ⟨(List.range 256).map (fun k : Nat => rectCount f k (localLo u input.width req i) (localHi u input.width req i)
        (localLo u input.height req j) (localHi u input.height req j)), 256, 0, true⟩
        ((localHi u input.width req i - localLo u input.width req i) *
          (localHi u input.height req j - localLo u input.height req j)) h = .ok (th i j) h) :
    ThreshOk (BlockOtsu.opsWith compute down u) b input output f req
      (fun i j k => rectCount f k (Grid.lo input.width req i) (Grid.hi input.width req i)
        (Grid.lo input.height req j) (Grid.hi input.height req j))
      (fun x y => b2i (down == decide (f x y ≤ th (Grid.blockOf input.width req x) (Grid.blockOf input.height req y)))) := by
  intro i j h h1' h2 P hi hj hsv hss hov hr hp hP
  have hvi := hr.valid
  obtain ⟨a1, a2⟩ := Grid.lo_le h1 hw hi
  obtain ⟨b1, b2⟩ := Grid.lo_le h1 hh hj
  have li := Grid.last_lt (u := u) hi
  have lj := Grid.last_lt (u := u) hj
  have fi := Grid.first_le u i
  have fj := Grid.first_le u j
  have li2 := Grid.le_last (u := u) hi
  have lj2 := Grid.le_last (u := u) hj
  have lxn := (Grid.lo_le h1 hw li).2
  have lyn := (Grid.lo_le h1 hh lj).2
  have hcomp := hth i j h2 hi hj
  show Spec (BlockOtsu.thresholdBlockWith compute down u b i j input output) h2 _
  unfold BlockOtsu.thresholdBlockWith
  rw [esw, esh, ebw, ebh, bounds_eq h1 hw hvi.widthLt hi, bounds_eq h1 hh hvi.heightLt hj,
    localRange_eq hvi.widthLt hi, localRange_eq hvi.heightLt hj]
  simp only
  generalize hN : (256 : Nat) = N at *
  generalize hni : Grid.last u input.width req i + 1 - Grid.first u i = ni at *
  generalize hnj : Grid.last u input.height req j + 1 - Grid.first u j = nj at *
  let C : Nat → Int := fun k => rectCount f k (localLo u input.width req i) (localHi u input.width req i)
        (localLo u input.height req j) (localHi u input.height req j)
  let S : Nat → Nat → Nat → Int := fun k i' j' => rectCount f k (Grid.lo input.width req (Grid.first u i + i')) (Grid.hi input.width req (Grid.first u i + i'))
        (Grid.lo input.height req (Grid.first u j + j')) (Grid.hi input.height req (Grid.first u j + j'))
  have hS0 : ∀ k x y, 0 ≤ S k x y := fun k x y => (rectCount_le f k _ _ _ _).1
  have hSC : ∀ k, pixelSum ni nj (S k) = C k := by
    intro k
    have := rectSum_blocks (w := input.width) (ht := input.height) h1 hw hh (fun x y => if f x y = (k : Int) then 1 else 0)
      (a := Grid.first u i) (c := Grid.last u input.width req i) (a' := Grid.first u j) (c' := Grid.last u input.height req j)
      (by omega) li (by omega) lj
    rw [← hni, ← hnj]
    exact this
  have hareaL : (localHi u input.width req i - localLo u input.width req i) *
          (localHi u input.height req j - localLo u input.height req j) < 2147483648 := by
    refine Nat.lt_of_le_of_lt (Nat.mul_le_mul ?_ ?_) harea
    · unfold localHi; omega
    · unfold localHi; omega
  have hCle : ∀ k, 0 ≤ C k ∧ C k < 2147483648 := by
    intro k
    have := rectCount_le f k (localLo u input.width req i) (localHi u input.width req i)
        (localLo u input.height req j) (localHi u input.height req j)
    constructor
    · exact this.1
    · refine lt_of_le_of_lt this.2 ?_
      exact_mod_cast hareaL
  have hfold : Spec (M.loopS nj (List.replicate N (0 : Int)) (fun j' hist =>
      M.loopS ni hist (fun k hist =>
        M.loopS N hist (fun l hist => do
          let v ← M.rd b.stats.buf (b.stats.indexOf (Grid.first u i) (Grid.first u j + j') 0 + (k * N + l))
          match hist[l]? with
          | some c => pure (hist.set l (U32.cast (c + v)))
          | none => M.ub)))) h2 (fun hist h' => hist = (List.range N).map C ∧ h' = h2) := by
    refine Spec.conseq (Spec.loopS (fun j' hist h' => (hist.length = N ∧ ∀ k, k < N → hist[k]? = some (prefixSum ni (S k) j' 0)) ∧ h' = h2)
      ⟨⟨List.length_replicate, fun k hk => by rw [List.getElem?_replicate, if_pos hk]; rfl⟩, rfl⟩ ?_) ?_
    · rintro j' hist h' hj' ⟨hI, rfl⟩
      refine Spec.conseq (Spec.loopS (fun i' hist h1 => (hist.length = N ∧ ∀ k, k < N → hist[k]? = some (prefixSum ni (S k) j' i')) ∧ h1 = h')
        ⟨hI, rfl⟩ ?_) ?_
      · rintro i' hist h1 hi' ⟨⟨hl, hI2⟩, rfl⟩
        refine Spec.conseq (Spec.loopS (fun l hist h3 => (hist.length = N ∧ ∀ k, k < N → hist[k]? =
          some (if k < l then prefixSum ni (S k) j' (i'+1) else prefixSum ni (S k) j' i')) ∧ h3 = h1)
          ⟨⟨hl, fun k hk => by rw [hI2 k hk, if_neg (by omega)]⟩, rfl⟩ ?_) ?_
        · rintro l hist h3 hlt ⟨⟨hl3, hI3⟩, rfl⟩
          have hx' : Grid.first u i + i' < b.stats.width := by omega
          have hy' : Grid.first u j + j' < b.stats.height := by omega
          have hrd : M.rd b.stats.buf (b.stats.indexOf (Grid.first u i) (Grid.first u j + j') 0 + (i' * N + l)) h3 = .ok (S l i' j') h3 := by
            rw [hsv.index_eq (by omega) hy' (b := 0) (by omega)]
            have e : b.stats.addr (Grid.first u i) (Grid.first u j + j') 0 + (i' * N + l) =
                b.stats.addr (Grid.first u i + i') (Grid.first u j + j') l := by
              unfold Interleaved.addr; rw [hnb]; ring
            rw [e]
            exact M.rd_run (hss _ _ l hx' hy' (by omega))
          refine Spec.bind_eq hrd ?_
          have hget := hI3 l hlt
          rw [if_neg (by omega)] at hget
          rw [hget]
          have e1 : prefixSum ni (S l) j' i' + S l i' j' = prefixSum ni (S l) j' (i'+1) := by rw [prefixSum_step]
          have hb := prefixSum_le_sum (w := ni) (n := nj) (f := S l) (fun _ _ _ _ => hS0 _ _ _) hj' (show i' + 1 ≤ ni from hi')
          rw [hSC] at hb
          have hc := hCle l
          have e2 : U32.cast (prefixSum ni (S l) j' i' + S l i' j') = prefixSum ni (S l) j' (i'+1) := by
            rw [e1]
            exact IntTy.cast_of_inRange (by decide) ⟨by show (0:Int) ≤ _; omega, by show _ ≤ (4294967295 : Int); omega⟩
          simp only
          rw [e2]
          refine Spec.pure ⟨⟨by rw [List.length_set, hl3], fun k hk => ?_⟩, rfl⟩
          rw [List.getElem?_set]
          by_cases e : l = k
          · subst e
            rw [if_pos rfl, if_pos (by omega), if_pos (by omega)]
          · rw [if_neg e, hI3 k hk]
            congr 1
            by_cases e' : k < l
            · rw [if_pos e', if_pos (by omega)]
            · rw [if_neg e', if_neg (by omega)]
        · rintro hist h3 ⟨⟨hl3, hI3⟩, rfl⟩
          exact ⟨⟨hl3, fun k hk => by rw [hI3 k hk, if_pos hk]⟩, rfl⟩
      · rintro hist h1 ⟨⟨hl3, hI3⟩, rfl⟩
        exact ⟨⟨hl3, fun k hk => by rw [hI3 k hk, prefixSum_row]⟩, rfl⟩
    · rintro hist h' ⟨⟨hl3, hI3⟩, rfl⟩
      exact ⟨list_eq_range hl3 (fun k hk => by rw [hI3 k hk, prefixSum_end, hSC]), rfl⟩
  refine Spec.bind hfold ?_
  rintro hist h' ⟨rfl, rfl⟩
  have hsumC : sumN N C = ((localHi u input.width req i - localLo u input.width req i) *
          (localHi u input.height req j - localLo u input.height req j) : Nat) := by
    have := sumN_pixelCount (w := localHi u input.width req i - localLo u input.width req i)
      (h := localHi u input.height req j - localLo u input.height req j) (n := N) (m := 0)
      (f := fun x y => f (localLo u input.width req i + x) (localLo u input.height req j + y)) (fun x y hx hy => by
        have := hf (localLo u input.width req i + x) (localLo u input.height req j + y)
          (by unfold localHi at hx; omega) (by unfold localHi at hy; omega)
        omega)
    rw [← this]
    apply sumN_congr
    intro k _
    rw [Int.zero_add]; rfl
  have htot : M.loopS N 0 (fun l total =>
      match ((List.range N).map C)[l]? with
      | some c => (pure (wrap32 (total + c.toNat)) : M Int Nat)
      | none => M.ub) h' = .ok ((localHi u input.width req i - localLo u input.width req i) *
          (localHi u input.height req j - localLo u input.height req j)) h' := by
    suffices Spec (M.loopS N 0 (fun l total =>
      match ((List.range N).map C)[l]? with
      | some c => (pure (wrap32 (total + c.toNat)) : M Int Nat)
      | none => M.ub)) h' (fun s h3 => (s : Int) = sumN N C ∧ h3 = h') by
      obtain ⟨s, h3, e, q1, rfl⟩ := this
      rw [e]
      congr 1
      rw [hsumC] at q1
      exact_mod_cast q1
    refine Spec.loopS (fun l (s : Nat) h3 => (s : Int) = sumN l C ∧ h3 = h') ⟨rfl, rfl⟩ ?_
    rintro l s h3 hl ⟨q1, rfl⟩
    rw [range_map_get hl]
    simp only
    have m1 : sumN (l+1) C ≤ sumN N C := sumN_mono_n hl (fun k _ => (hCle k).1)
    have m2 : 0 ≤ sumN l C := sumN_nonneg (fun k _ => (hCle k).1)
    have m3 : sumN (l+1) C = sumN l C + C l := rfl
    have m4 := (hCle l).1
    rw [hsumC] at m1
    have m5 : sumN (l+1) C < 2147483648 := lt_of_le_of_lt m1 (by exact_mod_cast hareaL)
    rw [wrap32_of_lt (by unfold P32; omega)]
    exact Spec.pure ⟨by rw [m3]; omega, rfl⟩
  refine Spec.bind_eq htot ?_
  refine Spec.bind_eq hcomp ?_
  rw [M.forRange_congr (g := fun y => M.loop (Grid.hi input.width req i - Grid.lo input.width req i) (fun k => do
      let v ← M.rd input.buf (wrap32 (wrap32 (input.offset + y * input.stride + Grid.lo input.width req i) + k))
      M.wr output.buf (wrap32 (output.offset + y * output.stride + Grid.lo input.width req i) + k) (b2i (down == decide (U8.cast v ≤ th i j)))))
    (fun y hy0 hy1 => by
      have e : wrap32 (wrap32 (output.offset + y * output.stride + Grid.lo input.width req i) +
          (Grid.hi input.width req i - Grid.lo input.width req i)) -
          wrap32 (output.offset + y * output.stride + Grid.lo input.width req i) =
          Grid.hi input.width req i - Grid.lo input.width req i := by
        have := hov.rowEnd_lt (y := y) (by omega)
        rw [wrap32_of_lt (n := output.offset + y * output.stride + Grid.lo input.width req i) (by omega),
          wrap32_of_lt (by omega)]
        omega
      simp only [e])]
  refine Spec.conseq (thresh_paint (dec := fun v => b2i (down == decide (U8.cast v ≤ th i j)))
    hov hr hp ew eh a2 b2 ?_ ?_ ?_) ?_
  · intro x y hx0 hx1 hy0 hy1
    exact hP x y ⟨⟨hx0, hx1⟩, ⟨hy0, hy1⟩⟩
  · intro x y hx0 hx1 hy0 hy1
    have e1 : i = Grid.blockOf input.width req x := (Grid.has_iff h1 hw (by omega) hi).mp ⟨hx0, hx1⟩
    have e2 : j = Grid.blockOf input.height req y := (Grid.has_iff h1 hh (by omega) hj).mp ⟨hy0, hy1⟩
    obtain ⟨q1, q2⟩ := hf x y (by omega) (by omega)
    rw [← e1, ← e2, IntTy.cast_of_inRange (t := U8) (by decide) ⟨q1, q2⟩]
  · intro y k h3 hy0 hy1 hk hrd
    rw [(hvi.addr_from (by omega) (by omega)).2, (hov.addr_from (by omega) (by omega)).1]
    exact M.bind_ok hrd
  · intro _ h3 hp3
    exact hp3.sel_iff (fun x y _ _ => by unfold InBlock Grid.Has; tauto)

end Boof
