import Verif.Proofs.OrUb
import Verif.Proofs.BlockOtsu
import Verif.Model.BlocksFloat
namespace Boof
variable {V : Type} {K : Type} [Field K] [LinearOrder K] [IsStrictOrderedRing K] [FloorRing K]

theorem toU8_run {A : OtsuOps V} {v : V} {u : Int} (e : A.toU8 v = some u) (h : Heap V) :
    BlockOtsuF.convert A v h = .ok u h := by
  unfold BlockOtsuF.convert
  rw [e]; rfl

theorem otsuF_statsOk {A : OtsuOps V} {compute : GrowArray Int → Nat → M V Int} {down u : Bool}
    {st : Interleaved} (hnb : st.numBands = 256) {input : Gray} {req : Nat} (h1 : 1 ≤ req)
    (hw : req ≤ input.width) (hh : req ≤ input.height)
    (hA : ∀ c, A.value (A.count c) = c) {f : Nat → Nat → V} {p : Nat → Nat → Int}
    (hcv : ∀ x y, x < input.width → y < input.height → A.toU8 (f x y) = some (p x y))
    (hf : ∀ x y, x < input.width → y < input.height → 0 ≤ p x y ∧ p x y ≤ 255)
    (harea : input.width * input.height < 2147483648) :
    StatsOk (BlockOtsuF.opsWith A compute down u) st input f req (fun v => v = A.count 0)
      (fun i j k => A.count (rectCount p k (Grid.lo input.width req i) (Grid.hi input.width req i)
        (Grid.lo input.height req j) (Grid.hi input.height req j))) := by
  intro i j h hi hj hv hfs hne idx hidx hcell
  obtain ⟨a1, a2⟩ := Grid.lo_le h1 hw hi
  obtain ⟨b1, b2⟩ := Grid.lo_le h1 hh hj
  show Spec (BlockOtsuF.blockStats A st _ _ _ _ _ input) h _
  unfold BlockOtsuF.blockStats
  beta_reduce
  generalize Grid.lo input.width req i = x0 at *
  generalize Grid.hi input.width req i = x1 at *
  generalize Grid.lo input.height req j = y0 at *
  generalize Grid.hi input.height req j = y1 at *
  rw [hnb] at *
  let G : Nat → Nat → Nat → Int := fun k x y => if p (x0 + x) (y0 + y) = (k : Int) then 1 else 0
  have hG : ∀ k x y, 0 ≤ G k x y := fun k x y => by
    show (0 : Int) ≤ if _ then 1 else 0; split <;> omega
  have hGsum : ∀ k, pixelSum (x1 - x0) (y1 - y0) (G k) < 2147483648 := by
    intro k
    have e := (rectCount_le p k x0 x1 y0 y1).2
    have e2 : (x1 - x0) * (y1 - y0) ≤ input.width * input.height := Nat.mul_le_mul (by omega) (by omega)
    have e3 : rectCount p k x0 x1 y0 y1 = pixelSum (x1 - x0) (y1 - y0) (G k) := rfl
    rw [← e3]
    omega
  refine Spec.conseq (Spec.loop (fun y h' => CellsSet h h' st.buf idx (idx + 256)
    (fun k => A.count (prefixSum (x1 - x0) (G (k - idx)) y 0))) ?_ ?_) ?_
  · refine ⟨fun k hk1 hk2 => ?_, fun _ _ _ => rfl, fun _ => rfl, rfl⟩
    obtain ⟨v, e, rfl⟩ := hcell (k - idx) (by omega)
    rw [show idx + (k - idx) = k by omega] at e
    rw [e]; rfl
  · intro y h2 hy hs
    refine Spec.conseq (Spec.loop (fun x h' => CellsSet h h' st.buf idx (idx + 256)
      (fun k => A.count (prefixSum (x1 - x0) (G (k - idx)) y x))) hs ?_) ?_
    · intro x h3 hx hs3
      obtain ⟨q1, q2⟩ := hf (x0 + x) (y0 + y) (by omega) (by omega)
      have hrd : M.rd input.buf (wrap32 (input.offset + (y0 + y) * input.stride + x0) + x) h3 = .ok (f (x0 + x) (y0 + y)) h3 := by
        rw [(hv.addr_from (by omega) (by omega)).1]
        exact M.rd_run (hs3.shows hfs hne _ _ (by omega) (by omega))
      refine Spec.bind_eq hrd ?_
      refine Spec.bind_eq (toU8_run (hcv (x0 + x) (y0 + y) (by omega) (by omega)) h3) ?_
      generalize hvv : p (x0 + x) (y0 + y) = v at *
      have hcl := hs3.cells (idx + v.toNat) (by omega) (by omega)
      refine Spec.bind_eq (M.rd_run hcl) ?_
      have hkk : idx + v.toNat - idx = v.toNat := by omega
      rw [hkk, hA]
      have hle := prefixSum_le_sum (w := x1 - x0) (n := y1 - y0) (f := G v.toNat) (fun _ _ _ _ => hG _ _ _) hy
        (show x + 1 ≤ x1 - x0 from hx)
      have hst : prefixSum (x1 - x0) (G v.toNat) y (x + 1) = prefixSum (x1 - x0) (G v.toNat) y x + 1 := by
        rw [prefixSum_step]
        have : G v.toNat x y = 1 := if_pos (by rw [hvv]; omega)
        rw [this]
      have hlt := hGsum v.toNat
      refine Spec.bind_eq (IntTy.arith_run (t := S32) (by decide) ⟨?_, ?_⟩ h3) ?_
      · show (-2147483648 : Int) ≤ _; omega
      · show _ ≤ (2147483647 : Int); omega
      refine hs3.update (by omega) (by omega) ?_
      intro k hk1 hk2
      by_cases e : k = idx + v.toNat
      · rw [if_pos e, e, hkk, hst]
      · rw [if_neg e, prefixSum_step]
        have : G (k - idx) x y = 0 := if_neg (by rw [hvv]; omega)
        rw [this, Int.add_zero]
    · intro _ h3 hs3
      exact hs3.congr (fun k _ _ => congrArg A.count prefixSum_row)
  · intro _ h2 hs
    exact hs.congr (fun k _ _ => congrArg A.count prefixSum_end)

theorem otsuF_threshOk {A : OtsuOps V} {compute : GrowArray Int → Nat → M V Int} {down u : Bool}
    {b : Blocks} (hnb : b.stats.numBands = 256) {input output : Gray} {req : Nat} (h1 : 1 ≤ req)
    (hw : req ≤ input.width) (hh : req ≤ input.height) (ew : output.width = input.width) (eh : output.height = input.height)
    (ebw : b.blockWidth = Grid.size input.width req) (ebh : b.blockHeight = Grid.size input.height req)
    (esw : b.stats.width = Grid.count input.width req) (esh : b.stats.height = Grid.count input.height req)
    (hA : ∀ c, A.value (A.count c) = c) {f : Nat → Nat → V} {p : Nat → Nat → Int}
    (hcv : ∀ x y, x < input.width → y < input.height → A.toU8 (f x y) = some (p x y))
    (hf : ∀ x y, x < input.width → y < input.height → 0 ≤ p x y ∧ p x y ≤ 255)
    (harea : input.width * input.height < 2147483648) {th : Nat → Nat → Int}
    (hth : ∀ i j (h : Heap V), i < Grid.count input.width req → j < Grid.count input.height req →
      compute ⟨(List.range 256).map (fun k : Nat => rectCount p k (localLo u input.width req i) (localHi u input.width req i)
        (localLo u input.height req j) (localHi u input.height req j)), 256, 0, true⟩
        ((localHi u input.width req i - localLo u input.width req i) *
          (localHi u input.height req j - localLo u input.height req j)) h = .ok (th i j) h) :
    ThreshOk (BlockOtsuF.opsWith A compute down u) b input output f req
      (fun i j k => A.count (rectCount p k (Grid.lo input.width req i) (Grid.hi input.width req i)
        (Grid.lo input.height req j) (Grid.hi input.height req j)))
      (fun x y => A.bit (down == decide (p x y ≤ th (Grid.blockOf input.width req x) (Grid.blockOf input.height req y)))) := by
  intro i j h h1' h2 P hi hj hsv hss hov hr hp hP
  have hvi := hr.valid
  obtain ⟨a1, a2⟩ := Grid.lo_le h1 hw hi
  obtain ⟨b1, b2⟩ := Grid.lo_le h1 hh hj
  have li := Grid.last_lt (u := u) hi
  have lj := Grid.last_lt (u := u) hj
  have fi := Grid.first_le u i
  have fj := Grid.first_le u j
  have li2 := Grid.le_last (u := u) hi
  have lj2 := Grid.le_last (u := u) hj
  have lxn := (Grid.lo_le h1 hw li).2
  have lyn := (Grid.lo_le h1 hh lj).2
  have hcomp := hth i j h2 hi hj
  show Spec (BlockOtsuF.thresholdBlockWith A compute down u b i j input output) h2 _
  unfold BlockOtsuF.thresholdBlockWith
  rw [esw, esh, ebw, ebh, bounds_eq h1 hw hvi.widthLt hi, bounds_eq h1 hh hvi.heightLt hj,
    localRange_eq hvi.widthLt hi, localRange_eq hvi.heightLt hj]
  simp only
  generalize hN : (256 : Nat) = N at *
  generalize hni : Grid.last u input.width req i + 1 - Grid.first u i = ni at *
  generalize hnj : Grid.last u input.height req j + 1 - Grid.first u j = nj at *
  let C : Nat → Int := fun k => rectCount p k (localLo u input.width req i) (localHi u input.width req i)
        (localLo u input.height req j) (localHi u input.height req j)
  let S : Nat → Nat → Nat → Int := fun k i' j' => rectCount p k (Grid.lo input.width req (Grid.first u i + i')) (Grid.hi input.width req (Grid.first u i + i'))
        (Grid.lo input.height req (Grid.first u j + j')) (Grid.hi input.height req (Grid.first u j + j'))
  have hS0 : ∀ k x y, 0 ≤ S k x y := fun k x y => (rectCount_le p k _ _ _ _).1
  have hSC : ∀ k, pixelSum ni nj (S k) = C k := by
    intro k
    have := rectSum_blocks (w := input.width) (ht := input.height) h1 hw hh (fun x y => if p x y = (k : Int) then 1 else 0)
      (a := Grid.first u i) (c := Grid.last u input.width req i) (a' := Grid.first u j) (c' := Grid.last u input.height req j)
      (by omega) li (by omega) lj
    rw [← hni, ← hnj]
    exact this
  have hareaL : (localHi u input.width req i - localLo u input.width req i) *
          (localHi u input.height req j - localLo u input.height req j) < 2147483648 := by
    refine Nat.lt_of_le_of_lt (Nat.mul_le_mul ?_ ?_) harea
    · unfold localHi; omega
    · unfold localHi; omega
  have hCle : ∀ k, 0 ≤ C k ∧ C k < 2147483648 := by
    intro k
    have := rectCount_le p k (localLo u input.width req i) (localHi u input.width req i)
        (localLo u input.height req j) (localHi u input.height req j)
    constructor
    · exact this.1
    · refine lt_of_le_of_lt this.2 ?_
      exact_mod_cast hareaL
  have hfold : Spec (M.loopS nj (List.replicate N (0 : Int)) (fun j' hist =>
      M.loopS ni hist (fun k hist =>
        M.loopS N hist (fun l hist => do
          let v ← M.rd b.stats.buf (b.stats.indexOf (Grid.first u i) (Grid.first u j + j') 0 + (k * N + l))
          match hist[l]? with
          | some c => pure (hist.set l (U32.cast (c + A.value v)))
          | none => M.ub)))) h2 (fun hist h' => hist = (List.range N).map C ∧ h' = h2) := by
    refine Spec.conseq (Spec.loopS (fun j' hist h' => (hist.length = N ∧ ∀ k, k < N → hist[k]? = some (prefixSum ni (S k) j' 0)) ∧ h' = h2)
      ⟨⟨List.length_replicate, fun k hk => by rw [List.getElem?_replicate, if_pos hk]; rfl⟩, rfl⟩ ?_) ?_
    · rintro j' hist h' hj' ⟨hI, rfl⟩
      refine Spec.conseq (Spec.loopS (fun i' hist h1 => (hist.length = N ∧ ∀ k, k < N → hist[k]? = some (prefixSum ni (S k) j' i')) ∧ h1 = h')
        ⟨hI, rfl⟩ ?_) ?_
      · rintro i' hist h1 hi' ⟨⟨hl, hI2⟩, rfl⟩
        refine Spec.conseq (Spec.loopS (fun l hist h3 => (hist.length = N ∧ ∀ k, k < N → hist[k]? =
          some (if k < l then prefixSum ni (S k) j' (i'+1) else prefixSum ni (S k) j' i')) ∧ h3 = h1)
          ⟨⟨hl, fun k hk => by rw [hI2 k hk, if_neg (by omega)]⟩, rfl⟩ ?_) ?_
        · rintro l hist h3 hlt ⟨⟨hl3, hI3⟩, rfl⟩
          have hx' : Grid.first u i + i' < b.stats.width := by omega
          have hy' : Grid.first u j + j' < b.stats.height := by omega
          have hrd : M.rd b.stats.buf (b.stats.indexOf (Grid.first u i) (Grid.first u j + j') 0 + (i' * N + l)) h3 = .ok (A.count (S l i' j')) h3 := by
            rw [hsv.index_eq (by omega) hy' (b := 0) (by omega)]
            have e : b.stats.addr (Grid.first u i) (Grid.first u j + j') 0 + (i' * N + l) =
                b.stats.addr (Grid.first u i + i') (Grid.first u j + j') l := by
              unfold Interleaved.addr; rw [hnb]; ring
            rw [e]
            exact M.rd_run (hss _ _ l hx' hy' (by omega))
          refine Spec.bind_eq hrd ?_
          have hget := hI3 l hlt
          rw [if_neg (by omega)] at hget
          rw [hget, hA]
          have e1 : prefixSum ni (S l) j' i' + S l i' j' = prefixSum ni (S l) j' (i'+1) := by rw [prefixSum_step]
          have hb := prefixSum_le_sum (w := ni) (n := nj) (f := S l) (fun _ _ _ _ => hS0 _ _ _) hj' (show i' + 1 ≤ ni from hi')
          rw [hSC] at hb
          have hc := hCle l
          have e2 : U32.cast (prefixSum ni (S l) j' i' + S l i' j') = prefixSum ni (S l) j' (i'+1) := by
            rw [e1]
            exact IntTy.cast_of_inRange (by decide) ⟨by show (0:Int) ≤ _; omega, by show _ ≤ (4294967295 : Int); omega⟩
          simp only
          rw [e2]
          refine Spec.pure ⟨⟨by rw [List.length_set, hl3], fun k hk => ?_⟩, rfl⟩
          rw [List.getElem?_set]
          by_cases e : l = k
          · subst e
            rw [if_pos rfl, if_pos (by omega), if_pos (by omega)]
          · rw [if_neg e, hI3 k hk]
            congr 1
            by_cases e' : k < l
            · rw [if_pos e', if_pos (by omega)]
            · rw [if_neg e', if_neg (by omega)]
        · rintro hist h3 ⟨⟨hl3, hI3⟩, rfl⟩
          exact ⟨⟨hl3, fun k hk => by rw [hI3 k hk, if_pos hk]⟩, rfl⟩
      · rintro hist h1 ⟨⟨hl3, hI3⟩, rfl⟩
        exact ⟨⟨hl3, fun k hk => by rw [hI3 k hk, prefixSum_row]⟩, rfl⟩
    · rintro hist h' ⟨⟨hl3, hI3⟩, rfl⟩
      exact ⟨list_eq_range hl3 (fun k hk => by rw [hI3 k hk, prefixSum_end, hSC]), rfl⟩
  refine Spec.bind hfold ?_
  rintro hist h' ⟨rfl, rfl⟩
  have hsumC : sumN N C = ((localHi u input.width req i - localLo u input.width req i) *
          (localHi u input.height req j - localLo u input.height req j) : Nat) := by
    have := sumN_pixelCount (w := localHi u input.width req i - localLo u input.width req i)
      (h := localHi u input.height req j - localLo u input.height req j) (n := N) (m := 0)
      (f := fun x y => p (localLo u input.width req i + x) (localLo u input.height req j + y)) (fun x y hx hy => by
        have := hf (localLo u input.width req i + x) (localLo u input.height req j + y)
          (by unfold localHi at hx; omega) (by unfold localHi at hy; omega)
        omega)
    rw [← this]
    apply sumN_congr
    intro k _
    rw [Int.zero_add]; rfl
  have htot : M.loopS N 0 (fun l total =>
      match ((List.range N).map C)[l]? with
      | some c => (pure (wrap32 (total + c.toNat)) : M V Nat)
      | none => M.ub) h' = .ok ((localHi u input.width req i - localLo u input.width req i) *
          (localHi u input.height req j - localLo u input.height req j)) h' := by
    suffices Spec (M.loopS N 0 (fun l total =>
      match ((List.range N).map C)[l]? with
      | some c => (pure (wrap32 (total + c.toNat)) : M V Nat)
      | none => M.ub)) h' (fun s h3 => (s : Int) = sumN N C ∧ h3 = h') by
      obtain ⟨s, h3, e, q1, rfl⟩ := this
      rw [e]
      congr 1
      rw [hsumC] at q1
      exact_mod_cast q1
    refine Spec.loopS (fun l (s : Nat) h3 => (s : Int) = sumN l C ∧ h3 = h') ⟨rfl, rfl⟩ ?_
    rintro l s h3 hl ⟨q1, rfl⟩
    rw [range_map_get hl]
    simp only
    have m1 : sumN (l+1) C ≤ sumN N C := sumN_mono_n hl (fun k _ => (hCle k).1)
    have m2 : 0 ≤ sumN l C := sumN_nonneg (fun k _ => (hCle k).1)
    have m3 : sumN (l+1) C = sumN l C + C l := rfl
    have m4 := (hCle l).1
    rw [hsumC] at m1
    have m5 : sumN (l+1) C < 2147483648 := lt_of_le_of_lt m1 (by exact_mod_cast hareaL)
    rw [wrap32_of_lt (by unfold P32; omega)]
    exact Spec.pure ⟨by rw [m3]; omega, rfl⟩
  refine Spec.bind_eq htot ?_
  refine Spec.bind_eq hcomp ?_
  rw [M.forRange_congr (g := fun y => M.loop (Grid.hi input.width req i - Grid.lo input.width req i) (fun k => do
      let v ← M.rd input.buf (wrap32 (wrap32 (input.offset + y * input.stride + Grid.lo input.width req i) + k))
      let u ← BlockOtsuF.convert A v
      M.wr output.buf (wrap32 (output.offset + y * output.stride + Grid.lo input.width req i) + k) (A.bit (down == decide (u ≤ th i j)))))
    (fun y hy0 hy1 => by
      have e : wrap32 (wrap32 (output.offset + y * output.stride + Grid.lo input.width req i) +
          (Grid.hi input.width req i - Grid.lo input.width req i)) -
          wrap32 (output.offset + y * output.stride + Grid.lo input.width req i) =
          Grid.hi input.width req i - Grid.lo input.width req i := by
        have := hov.rowEnd_lt (y := y) (by omega)
        rw [wrap32_of_lt (n := output.offset + y * output.stride + Grid.lo input.width req i) (by omega),
          wrap32_of_lt (by omega)]
        omega
      simp only [e])]
  refine Spec.conseq (thresh_paint (dec := fun v => A.bit (down == decide ((A.toU8 v).getD 0 ≤ th i j)))
    hov hr hp ew eh a2 b2 ?_ ?_ ?_) ?_
  · intro x y hx0 hx1 hy0 hy1
    exact hP x y ⟨⟨hx0, hx1⟩, ⟨hy0, hy1⟩⟩
  · intro x y hx0 hx1 hy0 hy1
    have e1 : i = Grid.blockOf input.width req x := (Grid.has_iff h1 hw (by omega) hi).mp ⟨hx0, hx1⟩
    have e2 : j = Grid.blockOf input.height req y := (Grid.has_iff h1 hh (by omega) hj).mp ⟨hy0, hy1⟩
    rw [← e1, ← e2, hcv x y (by omega) (by omega)]
    rfl
  · intro y k h3 hy0 hy1 hk hrd
    rw [(hvi.addr_from (by omega) (by omega)).2, (hov.addr_from (by omega) (by omega)).1]
    have e := hcv (Grid.lo input.width req i + k) y (by omega) (by omega)
    rw [M.bind_ok hrd, M.bind_ok (toU8_run e h3), e]
    rfl
  · intro _ h3 hp3
    exact hp3.sel_iff (fun x y _ _ => by unfold InBlock Grid.Has; tauto)

/-- Counting the pixels of a block is undefined unless all of them can be converted. -/
theorem otsuF_blockStats_ub {A : OtsuOps V} {st : Interleaved} {input : Gray} {f : Nat → Nat → V} {h0 h : Heap V} {x0 y0 x1 y1 idx : Nat}
    (hv : input.Valid h0) (hf : input.Shows h f) (hne : input.buf ≠ st.buf) (hx1 : x1 ≤ input.width) (hy1 : y1 ≤ input.height) :
    SpecOrUb (BlockOtsuF.blockStats A st x0 y0 (x1 - x0) (y1 - y0) idx input) h (fun _ h' => input.Shows h' f ∧
      ∀ x y, x0 ≤ x → x < x1 → y0 ≤ y → y < y1 → (A.toU8 (f x y)).isSome) := by
  have main : SpecOrUb (BlockOtsuF.blockStats A st x0 y0 (x1 - x0) (y1 - y0) idx input) h (fun _ h' => input.Shows h' f ∧
      ∀ y, y < y1 - y0 → ∀ x, x < x1 - x0 → (A.toU8 (f (x0 + x) (y0 + y))).isSome) := by
    refine SpecOrUb.loop (fun j h' => input.Shows h' f ∧ ∀ y, y < j → ∀ x, x < x1 - x0 → (A.toU8 (f (x0 + x) (y0 + y))).isSome)
      ⟨hf, fun y hy => absurd hy (by omega)⟩ ?_
    rintro j h' hj ⟨hf', hd⟩
    have inner : SpecOrUb (M.loop (x1 - x0) (fun k => do
        let v ← M.rd input.buf (wrap32 (input.offset + (y0 + j) * input.stride + x0) + k)
        let u ← BlockOtsuF.convert A v
        let c ← M.rd st.buf (idx + u.toNat)
        let c ← S32.arith (A.value c + 1)
        M.wr st.buf (idx + u.toNat) (A.count c))) h'
        (fun _ h'' => input.Shows h'' f ∧ ∀ x, x < x1 - x0 → (A.toU8 (f (x0 + x) (y0 + j))).isSome) := by
      refine SpecOrUb.loop (fun i h'' => input.Shows h'' f ∧ ∀ x, x < i → (A.toU8 (f (x0 + x) (y0 + j))).isSome)
        ⟨hf', fun x hx => absurd hx (by omega)⟩ ?_
      rintro i h2 hi ⟨hf2, hd2⟩
      refine SpecOrUb.bind (SpecOrUb.rd (Q := fun v h3 => v = f (x0 + i) (y0 + j) ∧ h3 = h2) (fun v hc => ⟨?_, rfl⟩)) ?_
      · rw [(hv.addr_from (by omega) (by omega)).1] at hc
        have := hf2 (x0 + i) (y0 + j) (by omega) (by omega)
        unfold Heap.px at this
        rw [hc] at this
        exact Option.some.inj this
      · rintro v h3 ⟨rfl, rfl⟩
        cases e : A.toU8 (f (x0 + i) (y0 + j)) with
        | none =>
          refine Or.inl (M.bind_ub ?_)
          unfold BlockOtsuF.convert
          rw [e]; rfl
        | some u =>
          refine SpecOrUb.bind (Or.inr ⟨u, h3, toU8_run e h3, rfl⟩ : SpecOrUb _ _ (fun _ h4 => h4 = h3)) ?_
          rintro u' h4 rfl
          refine SpecOrUb.bind (SpecOrUb.rd (Q := fun _ h5 => h5 = h4) (fun _ _ => rfl)) ?_
          rintro c h5 rfl
          refine SpecOrUb.bind (SpecOrUb.arith (Q := fun _ h6 => h6 = h5) (fun _ => rfl)) ?_
          rintro c' h6 rfl
          refine SpecOrUb.wr (fun h7 hc => ⟨fun x y hx hy => ?_, fun x hx => ?_⟩)
          · unfold Heap.px
            rw [hc _ _ hne]
            exact hf2 x y hx hy
          · by_cases q : x = i
            · subst q; rw [e]; rfl
            · exact hd2 x (by omega)
    rcases inner with e | ⟨_, h'', e, q1, q2⟩
    · exact Or.inl e
    · refine Or.inr ⟨_, h'', e, q1, fun y hy x hx => ?_⟩
      by_cases q : y = j
      · subst q; exact q2 x hx
      · exact hd y (by omega) x hx
  rcases main with e | ⟨a, h', e, q1, q2⟩
  · exact Or.inl e
  · refine Or.inr ⟨a, h', e, q1, fun x y hx0 hx1 hy0 hy1 => ?_⟩
    have := q2 (y - y0) (by omega) (x - x0) (by omega)
    rwa [show x0 + (x - x0) = x by omega, show y0 + (y - y0) = y by omega] at this

end Boof
