import Verif.Proofs.BlockOps
import Verif.Props.Config
namespace Boof
variable {K : Type} [Field K] [LinearOrder K] [IsStrictOrderedRing K] [FloorRing K]

theorem toInt_ok {V : Type} {t : IntTy} {v : K} (hr : t.InRange (truncK v)) (h : Heap V) :
    (M.toInt t v : M V Int) h = .ok (truncK v) h := by
  unfold M.toInt; rw [if_pos hr]; rfl

theorem mean_statsOk {t : IntTy} (ht : t = U8 ∨ t = U16 ∨ t = S16) {scaled : Int → Nat → K} {useLocal down : Bool}
    {st : Interleaved} (hnb : st.numBands = 1) {input : Gray} {f : Nat → Nat → Int} {req : Nat} (h1 : 1 ≤ req)
    (hw : req ≤ input.width) (hh : req ≤ input.height)
    (hf0 : ∀ x y, x < input.width → y < input.height → 0 ≤ f x y)
    (hsum : ∀ i j, i < Grid.count input.width req → j < Grid.count input.height req →
      rectSum f (Grid.lo input.width req i) (Grid.hi input.width req i) (Grid.lo input.height req j)
        (Grid.hi input.height req j) ≤ t.sumType.hi)
    (hstat : ∀ i j, i < Grid.count input.width req → j < Grid.count input.height req →
      0 ≤ meanStat scaled input.width input.height req f i j ∧
      meanStat scaled input.width input.height req f i j ≤ t.hi) :
    StatsOk (BlockMean.ops t scaled useLocal down) st input f req (fun _ => True)
      (fun i j _ => meanStat scaled input.width input.height req f i j) := by
  intro i j h hi hj hv hf hne idx hidx hcell
  obtain ⟨a1, a2⟩ := Grid.lo_le h1 hw hi
  obtain ⟨b1, b2⟩ := Grid.lo_le h1 hh hj
  show Spec (BlockMean.blockStats t scaled st _ _ _ _ _ input) h _
  unfold BlockMean.blockStats
  have hb : 0 < t.sumType.bits := sumType_bits (by tauto)
  refine Spec.bind_eq (loop_sum hb (g := fun x y => f (Grid.lo input.width req i + x) (Grid.lo input.height req j + y))
    ?_ ?_ (hsum i j hi hj)) ?_
  · intro y k hy hk
    rw [(hv.addr_from (by omega) (by omega)).1]
    exact M.rd_run (hf _ _ (by omega) (by omega))
  · intro y k hy hk
    exact hf0 _ _ (by omega) (by omega)
  have harea : wrap32 ((Grid.hi input.width req i - Grid.lo input.width req i) *
      (Grid.hi input.height req j - Grid.lo input.height req j)) =
      (Grid.hi input.width req i - Grid.lo input.width req i) * (Grid.hi input.height req j - Grid.lo input.height req j) :=
    wrap32_of_lt (Nat.lt_of_le_of_lt (Nat.mul_le_mul (by omega) (by omega)) hv.area_lt)
  rw [harea]
  have hm := hstat i j hi hj
  have htr : t.InRange (meanStat scaled input.width input.height req f i j) := ⟨by
    have : t.lo ≤ 0 := IntTy.inRange_zero.1
    omega, hm.2⟩
  have htb : 0 < t.bits := by rcases ht with rfl | rfl | rfl <;> decide
  have htr2 : t.sumType.InRange (meanStat scaled input.width input.height req f i j) := by
    have : t.hi ≤ t.sumType.hi := by rcases ht with rfl | rfl | rfl <;> decide
    have : t.sumType.lo ≤ 0 := IntTy.inRange_zero.1
    exact ⟨by omega, by omega⟩
  refine Spec.bind_eq (a := meanStat scaled input.width input.height req f i j) (h' := h) ?_ ?_
  · exact toInt_ok htr2 h
  · rw [IntTy.cast_of_inRange htb htr, hnb]
    obtain ⟨v, hv', _⟩ := hcell 0 (by omega)
    exact (CellsSet.refl h st.buf idx _).wr (Nat.le_refl _) ⟨v, hv'⟩ rfl

theorem last_sub_first_le {u : Bool} {n req b : Nat} : Grid.last u n req b + 1 - Grid.first u b ≤ 3 := by
  unfold Grid.last Grid.first
  cases u
  · simp
  · simp; omega

theorem mean_threshOk {t : IntTy} (ht : t = U8 ∨ t = U16 ∨ t = S16) {scaled : Int → Nat → K} {u down : Bool}
    {b : Blocks} (hnb : b.stats.numBands = 1) {input output : Gray} {f : Nat → Nat → Int} {req : Nat} (h1 : 1 ≤ req)
    (hw : req ≤ input.width) (hh : req ≤ input.height) (ew : output.width = input.width) (eh : output.height = input.height)
    (ebw : b.blockWidth = Grid.size input.width req) (ebh : b.blockHeight = Grid.size input.height req)
    (esw : b.stats.width = Grid.count input.width req) (esh : b.stats.height = Grid.count input.height req)
    {S : Nat → Nat → Int}
    (hS : ∀ i j, i < Grid.count input.width req → j < Grid.count input.height req → 0 ≤ S i j ∧ S i j ≤ t.hi) :
    ThreshOk (BlockMean.ops t scaled u down) b input output f req (fun i j _ => S i j)
      (fun x y => b2i (down == decide (f x y ≤ localMean u input.width input.height req S
        (Grid.blockOf input.width req x) (Grid.blockOf input.height req y)))) := by
  intro i j h h1' h2 P hi hj hsv hss hov hr hp hP
  have hvi := hr.valid
  obtain ⟨a1, a2⟩ := Grid.lo_le h1 hw hi
  obtain ⟨b1, b2⟩ := Grid.lo_le h1 hh hj
  have li := Grid.last_lt (u := u) hi
  have lj := Grid.last_lt (u := u) hj
  have fi := Grid.first_le u i
  have fj := Grid.first_le u j
  have li2 := Grid.le_last (u := u) hi
  have lj2 := Grid.le_last (u := u) hj
  have ti := last_sub_first_le (u := u) (n := input.width) (req := req) (b := i)
  have tj := last_sub_first_le (u := u) (n := input.height) (req := req) (b := j)
  show Spec (BlockMean.thresholdBlock t u down b i j input output) h2 _
  unfold BlockMean.thresholdBlock
  rw [esw, esh, ebw, ebh, bounds_eq h1 hw hvi.widthLt hi, bounds_eq h1 hh hvi.heightLt hj,
    localRange_eq hvi.widthLt hi, localRange_eq hvi.heightLt hj]
  simp only
  generalize hni : Grid.last u input.width req i + 1 - Grid.first u i = ni at *
  generalize hnj : Grid.last u input.height req j + 1 - Grid.first u j = nj at *
  have hle : pixelSum ni nj (fun x y => S (Grid.first u i + x) (Grid.first u j + y)) ≤ (ni * nj : Nat) * t.hi :=
    pixelSum_le (fun x y hx hy => (hS _ _ (by omega) (by omega)).2)
  have h0le : (ni * nj : Nat) * (0 : Int) ≤ pixelSum ni nj (fun x y => S (Grid.first u i + x) (Grid.first u j + y)) :=
    le_pixelSum (fun x y hx hy => (hS _ _ (by omega) (by omega)).1)
  have h9 : ni * nj ≤ 9 := Nat.le_trans (Nat.mul_le_mul ti tj) (by decide)
  have hpos : 0 < ni * nj := Nat.mul_pos (by omega) (by omega)
  have hthi : 0 ≤ t.hi := IntTy.inRange_zero.2
  have hle9 : pixelSum ni nj (fun x y => S (Grid.first u i + x) (Grid.first u j + y)) ≤ 9 * t.hi := by
    refine le_trans hle ?_
    exact mul_le_mul_of_nonneg_right (by omega) hthi
  have h9s : 9 * t.hi ≤ t.sumType.hi ∧ 9 * t.hi < P32 := by rcases ht with rfl | rfl | rfl <;> decide
  refine Spec.bind_eq (loop_sum (sumType_bits (by tauto)) (g := fun x y => S (Grid.first u i + x) (Grid.first u j + y))
    ?_ ?_ (by omega)) ?_
  · intro y k hy hk
    have hx' : Grid.first u i + k < b.stats.width := by omega
    have hy' : Grid.first u j + y < b.stats.height := by omega
    have e := hsv.index_eq hx' hy' (b := 0) (by omega)
    rw [e]
    exact M.rd_run (hss _ _ 0 hx' hy' (by omega))
  · intro y k hy hk
    exact (hS _ _ (by omega) (by omega)).1
  have ew : wrap32 ((Grid.last u input.height req j - Grid.first u j + 1) * (Grid.last u input.width req i - Grid.first u i + 1)) =
      ni * nj := by
    rw [show Grid.last u input.height req j - Grid.first u j + 1 = nj by omega,
      show Grid.last u input.width req i - Grid.first u i + 1 = ni by omega, Nat.mul_comm, wrap32_of_lt (by unfold P32; omega)]
  rw [ew]
  refine Spec.bind_eq (divU32_run hpos (Or.inr ⟨by omega, by omega⟩) h2) ?_
  have hb := tdiv_between (n := ((ni * nj : Nat) : Int)) (by omega) h0le hle
  have htb : 0 < t.bits := by rcases ht with rfl | rfl | rfl <;> decide
  have hlo : t.lo ≤ 0 := IntTy.inRange_zero.1
  rw [IntTy.cast_of_inRange htb ⟨by omega, hb.2⟩]
  have hmean : (pixelSum ni nj (fun x y => S (Grid.first u i + x) (Grid.first u j + y))).tdiv ((ni * nj : Nat) : Int) =
      localMean u input.width input.height req S i j := by
    unfold localMean rectSum
    rw [hni, hnj, Int.tdiv_eq_ediv_of_nonneg (by omega)]
  rw [hmean]
  refine Spec.conseq (thresh_paint (dec := fun v => b2i (down == decide (v ≤ localMean u input.width input.height req S i j)))
    hov hr hp (by assumption) eh a2 b2 ?_ ?_ ?_) ?_
  · intro x y hx0 hx1 hy0 hy1
    exact hP x y ⟨⟨hx0, hx1⟩, ⟨hy0, hy1⟩⟩
  · intro x y hx0 hx1 hy0 hy1
    have e1 : i = Grid.blockOf input.width req x := (Grid.has_iff h1 hw (by omega) hi).mp ⟨hx0, hx1⟩
    have e2 : j = Grid.blockOf input.height req y := (Grid.has_iff h1 hh (by omega) hj).mp ⟨hy0, hy1⟩
    rw [← e1, ← e2]
  · intro y k h3 hy0 hy1 hk hrd
    rw [(hvi.addr_from (by omega) (by omega)).1, (hov.addr_from (by omega) (by omega)).1]
    exact M.bind_ok hrd
  · intro _ h3 hp3
    exact hp3.sel_iff (fun x y _ _ => by unfold InBlock Grid.Has; tauto)

end Boof
