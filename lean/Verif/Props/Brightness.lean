import Verif.Proofs.Brightness
import Verif.Spec.Brightness
import Verif.Props.RoundedBlocks
import Verif.Props.Blur
/-
C117: adaptive thresholds do not depend on the brightness.  Two runs, on pictures which differ by a constant.
-/
namespace Boof
open M OtsuSpec
variable {K : Type} [Field K] [LinearOrder K] [IsStrictOrderedRing K] [FloorRing K]

/-- Local mean threshold with scale 1, 8-bit pixels, in single and double precision: adding a constant to all pixels does not
change the binary picture. -/
theorem C117_localMean_u8 (junk junk' : Nat → Int) {h k : Heap Int} {i1 o1 a1 b1 i2 o2 a2 b2 : Gray} {f : Nat → Nat → Int} {c : Int}
    {width : ConfigLength ℚ} {down : Bool} {n : Nat}
    (hn : ∀ h : Heap Int, width.computeIR float64 ((min i1.width i1.height : Nat) : ℚ) h = .ok n h) (hn2 : 2 ≤ n) (hn3 : n ≤ 1000000)
    (A : LocalArgs h i1 o1 a1 b1 n f) (B : LocalArgs k i2 o2 a2 b2 n (fun x y => f x y + c))
    (hw : i2.width = i1.width) (hh : i2.height = i1.height)
    (hf : ∀ x y, x < i1.width → y < i1.height → 0 ≤ f x y ∧ f x y ≤ 255)
    (hfc : ∀ x y, x < i1.width → y < i1.height → 0 ≤ f x y + c ∧ f x y + c ≤ 255) :
    ∃ (r1 r2 p1 p2 q1 q2 : Gray) (h' k' : Heap Int),
      ThresholdOps.localMeanR float32 float64 0 (fun a b r s => BlurImageOps.meanInt U8 (intElem U8 junk) a b r s)
        (fun v => float32 (v : ℚ)) (fun b => if b then 1 else 0) i1 o1 width 1 down a1 b1 h = .ok (r1, p1, q1) h' ∧
      ThresholdOps.localMeanR float32 float64 0 (fun a b r s => BlurImageOps.meanInt U8 (intElem U8 junk') a b r s)
        (fun v => float32 (v : ℚ)) (fun b => if b then 1 else 0) i2 o2 width 1 down a2 b2 k = .ok (r2, p2, q2) k' ∧
      SamePicture h' r1 k' r2 i1.width i1.height := by
  have hs : float32 (((100 : Nat) : ℚ) / 100) = some 1 := by
    have := float32_exact (K := ℚ) 1 (by omega)
    norm_num at this ⊢
    exact this
  obtain ⟨r1, p1, q1, h', e1, t1, -⟩ := C110_u8_partial junk (k := 100) (down := down) (by omega) (by omega) hs hn hn2 hn3 A.inputValid A.outputValid
    A.firstValid A.secondValid A.shows A.canBe A.firstCanBe A.secondCanBe A.sep A.firstSep A.secondSep A.apart.1 A.apart.2.1 A.apart.2.2
    A.width A.height A.length A.secondLength A.shape hf
  obtain ⟨r2, p2, q2, k', e2, t2, -⟩ := C110_u8_partial junk' (k := 100) (down := down) (by omega) (by omega) hs
    (by rw [hw, hh]; exact hn) hn2 hn3 B.inputValid B.outputValid
    B.firstValid B.secondValid B.shows B.canBe B.firstCanBe B.secondCanBe B.sep B.firstSep B.secondSep B.apart.1 B.apart.2.1 B.apart.2.2
    B.width B.height B.length B.secondLength B.shape (by rw [hw, hh]; exact hfc)
  refine ⟨r1, r2, p1, p2, q1, q2, h', k', e1, e2, fun x y hx hy => ⟨_, t1.pix x y hx hy, ?_⟩⟩
  rw [t2.pix x y (by omega) (by omega), hw, hh]
  rw [meanImage_shift (by decide) (by decide) hx hy (P := 255) (by decide) hf hfc]
  congr 1
  cases down
  · simp only [Bool.false_eq_true, if_false]
    congr 1
    exact propext (by push_cast; omega)
  · simp only [if_true]
    congr 1
    exact propext (by push_cast; omega)

/-- The arguments for a 3x3 picture: the pixels 0 and 100, and 20 more. -/
example : ∃ (h k : Heap Int) (f : Nat → Nat → Int),
    LocalArgs h ⟨0, 9, 3, 3, 0, 3, false⟩ ⟨1, 9, 3, 3, 0, 3, false⟩ ⟨2, 9, 3, 3, 0, 3, false⟩ ⟨3, 9, 3, 3, 0, 3, false⟩ 3 f ∧
    LocalArgs k ⟨0, 9, 3, 3, 0, 3, false⟩ ⟨1, 9, 3, 3, 0, 3, false⟩ ⟨2, 9, 3, 3, 0, 3, false⟩ ⟨3, 9, 3, 3, 0, 3, false⟩ 3 (fun x y => f x y + 20) ∧
    (∀ h : Heap Int, (ConfigLength.fixed (3 : ℚ)).computeIR float64 ((min 3 3 : Nat) : ℚ) h = .ok ((3 : Nat) : Int) h) ∧
    (∀ x y, x < 3 → y < 3 → 0 ≤ f x y ∧ f x y ≤ 255) ∧ (∀ x y, x < 3 → y < 3 → 0 ≤ f x y + 20 ∧ f x y + 20 ≤ 255) := by
  have val : ∀ (b : Nat) (h : Heap Int), (∃ l, h.get b = some l ∧ l.length = 9) → (⟨b, 9, 3, 3, 0, 3, false⟩ : Gray).Valid h := by
    rintro b h ⟨l, e, hl⟩
    refine ⟨by rw [e]; rfl, ?_, by show 9 < P32; decide, by show 3 < P32; decide, by show 3 < P32; decide, by show 3 ≤ 3; decide, ?_,
      fun _ => ⟨rfl, rfl⟩⟩
    · intro i hi
      change i < 9 at hi
      unfold Heap.cell
      show ∃ v, (h.get b).bind (fun l => l[i]?) = some v
      rw [e]
      exact ⟨l[i], by simp [List.getElem?_eq_getElem (show i < l.length by omega)]⟩
    · intro y hy
      change y < 3 at hy
      show 0 + y * 3 + 3 ≤ 9
      omega
  refine ⟨⟨[some [0,100,0,100,0,0,0,100,100], some (List.replicate 9 0), some (List.replicate 9 0), some (List.replicate 9 0)]⟩,
    ⟨[some [20,120,20,120,20,20,20,120,120], some (List.replicate 9 0), some (List.replicate 9 0), some (List.replicate 9 0)]⟩,
    fun x y => [0,100,0,100,0,0,0,100,100].getD (y * 3 + x) 0, ?_, ?_, ?_, ?_, ?_⟩
  · refine ⟨val _ _ ⟨_, rfl, rfl⟩, val _ _ ⟨_, rfl, rfl⟩, val _ _ ⟨_, rfl, rfl⟩, val _ _ ⟨_, rfl, rfl⟩, ?_, Or.inl rfl, Or.inl rfl,
      Or.inl rfl, Or.inl (by decide), Or.inl (by decide), Or.inl (by decide), by decide, by decide, by decide, by decide, by decide, by decide⟩
    intro x y hx hy
    change x < 3 at hx
    change y < 3 at hy
    have hx : x = 0 ∨ x = 1 ∨ x = 2 := by omega
    have hy : y = 0 ∨ y = 1 ∨ y = 2 := by omega
    rcases hx with rfl | rfl | rfl <;> rcases hy with rfl | rfl | rfl <;> rfl
  · refine ⟨val _ _ ⟨_, rfl, rfl⟩, val _ _ ⟨_, rfl, rfl⟩, val _ _ ⟨_, rfl, rfl⟩, val _ _ ⟨_, rfl, rfl⟩, ?_, Or.inl rfl, Or.inl rfl,
      Or.inl rfl, Or.inl (by decide), Or.inl (by decide), Or.inl (by decide), by decide, by decide, by decide, by decide, by decide, by decide⟩
    intro x y hx hy
    change x < 3 at hx
    change y < 3 at hy
    have hx : x = 0 ∨ x = 1 ∨ x = 2 := by omega
    have hy : y = 0 ∨ y = 1 ∨ y = 2 := by omega
    rcases hx with rfl | rfl | rfl <;> rcases hy with rfl | rfl | rfl <;> rfl
  · exact fun h => C110_width_fixed (n := 3) (by decide +kernel) (by omega) _ h
  · have : ∀ x, x < 3 → ∀ y, y < 3 → 0 ≤ ([0,100,0,100,0,0,0,100,100] : List Int).getD (y * 3 + x) 0 ∧
        ([0,100,0,100,0,0,0,100,100] : List Int).getD (y * 3 + x) 0 ≤ 255 := by decide +kernel
    exact fun x y hx hy => this x hx y hy
  · have : ∀ x, x < 3 → ∀ y, y < 3 → 0 ≤ ([0,100,0,100,0,0,0,100,100] : List Int).getD (y * 3 + x) 0 + 20 ∧
        ([0,100,0,100,0,0,0,100,100] : List Int).getD (y * 3 + x) 0 + 20 ≤ 255 := by decide +kernel
    exact fun x y hx hy => this x hx y hy

/-- The block mean filter with scale 1, 8-bit pixels, in single and double precision. -/
theorem C117_mean_u8 {useLocal down : Bool} {z z' : Int} {config : ConfigLength K} {h k : Heap Int} {s1 s2 : Interleaved} {i1 o1 i2 o2 : Gray}
    {f : Nat → Nat → Int} {c : Int} (A : BlockArgs h s1 i1 o1 f) (B : BlockArgs k s2 i2 o2 (fun x y => f x y + c))
    (hb1 : s1.numBands = 1) (hb2 : s2.numBands = 1) (ew : i2.width = i1.width) (eh : i2.height = i1.height)
    {req : Nat} (h1 : 1 ≤ req) (hw : req ≤ i1.width) (hh : req ≤ i1.height)
    (hreq : ∀ h : Heap Int, config.computeIR float64 ((min i1.width i1.height : Nat) : K) h = .ok (req : Int) h)
    (hf : ∀ x y, x < i1.width → y < i1.height → 0 ≤ f x y ∧ f x y ≤ 255)
    (hfc : ∀ x y, x < i1.width → y < i1.height → 0 ≤ f x y + c ∧ f x y + c ≤ 255)
    (hA : ∀ i j, i < Grid.count i1.width req → j < Grid.count i1.height req → blockArea i1.width i1.height req i j ≤ 10000) :
    ∃ b h' d k', Blocks.processR float64 (BlockMean.opsR (float32 : K → Option K) U8 1 useLocal down) z config s1 i1 o1 h = .ok b h' ∧
      Blocks.processR float64 (BlockMean.opsR (float32 : K → Option K) U8 1 useLocal down) z' config s2 i2 o2 k = .ok d k' ∧
      SamePicture h' o1 k' o2 i1.width i1.height := by
  obtain ⟨b, h', e1, t1⟩ := C114_mean_u8 (useLocal := useLocal) (down := down) (z := z) A hb1 h1 hw hh (hreq h) hf hA
  obtain ⟨d, k', e2, t2⟩ := C114_mean_u8 (useLocal := useLocal) (down := down) (z := z') B hb2 h1 (by omega) (by omega)
    (by rw [ew, eh]; exact hreq k) (by rw [ew, eh]; exact hfc) (by rw [ew, eh]; exact hA)
  refine ⟨b, h', d, k', e1, e2, fun x y hx hy => ⟨_, t1.pix x y (by rw [A.width]; exact hx) (by rw [A.height]; exact hy), ?_⟩⟩
  rw [t2.pix x y (by rw [B.width]; omega) (by rw [B.height]; omega), ew, eh]
  have hi := (Grid.has_blockOf h1 hw hx).1
  have hj := (Grid.has_blockOf h1 hh hy).1
  have stat : ∀ i j, i < Grid.count i1.width req → j < Grid.count i1.height req →
      nearest (blockSum i1.width i1.height req (fun x y => f x y + c) i j) (blockArea i1.width i1.height req i j) =
        nearest (blockSum i1.width i1.height req f i j) (blockArea i1.width i1.height req i j) + c := by
    intro i j hi hj
    obtain ⟨p0, -, -⟩ := block_facts (Mx := 255) h1 hw hh hf hi hj
    rw [← nearest_shift p0]
    congr 1
    exact rectSum_shift f c _ _ _ _
  rw [localMean_congr stat hi hj, blockLocalMean_shift _ _
    (Nat.le_trans (Grid.first_le _ _) (Grid.le_last hi)) (Nat.le_trans (Grid.first_le _ _) (Grid.le_last hj))]
  congr 1
  have : decide (f x y + c ≤ localMean useLocal i1.width i1.height req
      (fun i j => nearest (blockSum i1.width i1.height req f i j) (blockArea i1.width i1.height req i j))
      (Grid.blockOf i1.width req x) (Grid.blockOf i1.height req y) + c) =
    decide (f x y ≤ localMean useLocal i1.width i1.height req
      (fun i j => nearest (blockSum i1.width i1.height req f i j) (blockArea i1.width i1.height req i j))
      (Grid.blockOf i1.width req x) (Grid.blockOf i1.height req y)) := decide_eq_decide.mpr (by omega)
  rw [this]

/-- The 5x2 image of C39 (its `BlockArgs` are shown there), and the same image with 5 more: the result is 1,1,0,... both times. -/
example :
    (match Blocks.processR float64 (BlockMean.opsR (float32 : ℚ → Option ℚ) U8 1 false true) 0 (ConfigLength.fixed (2 : ℚ)) ⟨2, 0, 0, 0, 1, 0, 0, false⟩ ⟨0, 10, 5, 2, 0, 5, false⟩ ⟨1, 10, 5, 2, 0, 5, false⟩
      ⟨[some [1,2,9,8,7,3,4,5,6,7], some [0,0,0,0,0,0,0,0,0,0], some []]⟩ with
      | .ok _ h => h.get 1
      | _ => none) = some [1,1,0,0,1,1,0,1,1,1] ∧
    (match Blocks.processR float64 (BlockMean.opsR (float32 : ℚ → Option ℚ) U8 1 false true) 0 (ConfigLength.fixed (2 : ℚ)) ⟨2, 0, 0, 0, 1, 0, 0, false⟩ ⟨0, 10, 5, 2, 0, 5, false⟩ ⟨1, 10, 5, 2, 0, 5, false⟩
      ⟨[some [6,7,14,13,12,8,9,10,11,12], some [0,0,0,0,0,0,0,0,0,0], some []]⟩ with
      | .ok _ h => h.get 1
      | _ => none) = some [1,1,0,0,1,1,0,1,1,1] := by
  decide +kernel

/-- The block min-max filter with scale 1 on pixels which are not negative. -/
theorem C117_minmax {t : IntTy} (ht : t = U8 ∨ t = U16 ∨ t = S16) {minimumSpread : K} {useLocal down : Bool} {z z' : Int}
    {config : ConfigLength K} {h k : Heap Int} {s1 s2 : Interleaved} {i1 o1 i2 o2 : Gray}
    {f : Nat → Nat → Int} {c : Int} (A : BlockArgs h s1 i1 o1 f) (B : BlockArgs k s2 i2 o2 (fun x y => f x y + c))
    (hb1 : s1.numBands = 2) (hb2 : s2.numBands = 2) (ew : i2.width = i1.width) (eh : i2.height = i1.height)
    {req : Nat} (h1 : 1 ≤ req) (hw : req ≤ i1.width) (hh : req ≤ i1.height)
    (hreq : ∀ h : Heap Int, config.computeIR float64 ((min i1.width i1.height : Nat) : K) h = .ok (req : Int) h)
    (hf : ∀ x y, x < i1.width → y < i1.height → 0 ≤ f x y ∧ f x y ≤ t.hi)
    (hfc : ∀ x y, x < i1.width → y < i1.height → 0 ≤ f x y + c ∧ f x y + c ≤ t.hi)
    (hsize : Grid.count i1.width req * Grid.count i1.height req * 2 < 4294967296)
    (hspread : t.sumType.InRange (truncK minimumSpread)) :
    ∃ b h' d k', Blocks.processR float64 (BlockMinMax.opsR (float32 : K → Option K) t minimumSpread 1 useLocal down) z config s1 i1 o1 h = .ok b h' ∧
      Blocks.processR float64 (BlockMinMax.opsR (float32 : K → Option K) t minimumSpread 1 useLocal down) z' config s2 i2 o2 k = .ok d k' ∧
      SamePicture h' o1 k' o2 i1.width i1.height := by
  have hlo : t.lo ≤ 0 := by rcases ht with rfl | rfl | rfl <;> decide
  have hx : ExactTo (float32 : K → Option K) 65536 := fun i hi => float32_exact i (by omega)
  have hbig : (2 : K) ^ 28 ≤ 2 ^ 127 := pow_le_pow_right₀ (by norm_num) (by norm_num)
  have hη : (1 : K) / 2 ^ 150 ≤ 1 := by
    rw [div_le_one (by positivity)]; exact one_le_pow₀ (by norm_num)
  obtain ⟨b, h', S, mn, mx, T, e1, p1, t1⟩ := C114_minmax (useLocal := useLocal) (down := down) (z := z) (scale := 1) float32_format float32_rounds
    (by norm_num) hη hx hbig ht (by norm_num) (by norm_num) A hb1 h1 hw hh (hreq h)
    (fun x y hx hy => ⟨le_trans hlo (hf x y hx hy).1, (hf x y hx hy).2⟩) hsize hspread
  obtain ⟨d, k', S', mn', mx', T', e2, p2, t2⟩ := C114_minmax (useLocal := useLocal) (down := down) (z := z') (scale := 1) float32_format float32_rounds
    (by norm_num) hη hx hbig ht (by norm_num) (by norm_num) B hb2 h1 (by omega) (by omega) (by rw [ew, eh]; exact hreq k)
    (by rw [ew, eh]; exact fun x y hx hy => ⟨le_trans hlo (hfc x y hx hy).1, (hfc x y hx hy).2⟩) (by rw [ew, eh]; exact hsize) hspread
  refine ⟨b, h', d, k', e1, e2, fun x y hx hy => ⟨_, t1.pix x y (by rw [A.width]; exact hx) (by rw [A.height]; exact hy), ?_⟩⟩
  rw [t2.pix x y (by rw [B.width]; omega) (by rw [B.height]; omega)]
  rw [ew, eh] at p2 ⊢
  have hi := (Grid.has_blockOf h1 hw hx).1
  have hj := (Grid.has_blockOf h1 hh hy).1
  generalize Grid.blockOf i1.width req x = i at *
  generalize Grid.blockOf i1.height req y = j at *
  obtain ⟨m1, m2, -, m3, -⟩ := p1 i j hi hj
  obtain ⟨m1', m2', -, m3', -⟩ := p2 i j hi hj
  have lx := (Grid.lo_le h1 hw (Grid.last_lt (u := useLocal) hi)).2
  have ly := (Grid.lo_le h1 hh (Grid.last_lt (u := useLocal) hj)).2
  have r1 : 0 ≤ mn i j ∧ 0 ≤ mn i j + c := by
    obtain ⟨-, x, y, hx0, hx1, hy0, hy1, e⟩ := m1
    rw [← e]
    exact ⟨(hf x y (lt_of_lt_of_le hx1 lx) (lt_of_lt_of_le hy1 ly)).1, (hfc x y (lt_of_lt_of_le hx1 lx) (lt_of_lt_of_le hy1 ly)).1⟩
  have r2 : 0 ≤ mx i j ∧ 0 ≤ mx i j + c := by
    obtain ⟨-, x, y, hx0, hx1, hy0, hy1, e⟩ := m2
    rw [← e]
    exact ⟨(hf x y (lt_of_lt_of_le hx1 lx) (lt_of_lt_of_le hy1 ly)).1, (hfc x y (lt_of_lt_of_le hx1 lx) (lt_of_lt_of_le hy1 ly)).1⟩
  have q1 := m1.shift m1'
  have q2 := m2.shift m2'
  have q3 := m3 rfl
  have q4 := m3' rfl
  rw [q1, q2, Int.tdiv_eq_ediv_of_nonneg (by omega)] at q4
  rw [Int.tdiv_eq_ediv_of_nonneg (by omega)] at q3
  have q5 : T' i j = T i j + c := by omega
  simp only [q1, q2, q5]
  have e1 : (mx i j + c - (mn i j + c) ≤ truncK minimumSpread) = (mx i j - mn i j ≤ truncK minimumSpread) := by
    congr 1; omega
  have e2 : decide (f x y + c ≤ T i j + c) = decide (f x y ≤ T i j) := decide_eq_decide.mpr (by omega)
  simp only [e1, e2]

/-- The same images, spread 3. -/
example :
    (match Blocks.processR float64 (BlockMinMax.opsR (float32 : ℚ → Option ℚ) U8 3 1 false true) 0 (ConfigLength.fixed (2 : ℚ)) ⟨2, 0, 0, 0, 2, 0, 0, false⟩ ⟨0, 10, 5, 2, 0, 5, false⟩ ⟨1, 10, 5, 2, 0, 5, false⟩
      ⟨[some [1,2,9,8,7,3,4,5,6,7], some [0,0,0,0,0,0,0,0,0,0], some []]⟩ with
      | .ok _ h => h.get 1
      | _ => none) = some [1,1,0,0,1,1,1,1,1,1] ∧
    (match Blocks.processR float64 (BlockMinMax.opsR (float32 : ℚ → Option ℚ) U8 3 1 false true) 0 (ConfigLength.fixed (2 : ℚ)) ⟨2, 0, 0, 0, 2, 0, 0, false⟩ ⟨0, 10, 5, 2, 0, 5, false⟩ ⟨1, 10, 5, 2, 0, 5, false⟩
      ⟨[some [6,7,14,13,12,8,9,10,11,12], some [0,0,0,0,0,0,0,0,0,0], some []]⟩ with
      | .ok _ h => h.get 1
      | _ => none) = some [1,1,0,0,1,1,1,1,1,1] := by
  decide +kernel

/-! ### Otsu -/

/-- Otsu's threshold depends on how often each value occurs, not on where: two images with the same counts have the same one. -/
theorem C117_otsu_counts {t : IntTy} (ht : t = U8 ∨ t = U16 ∨ t = S16 ∨ t = S32) {h k : Heap Int} {g1 g2 : Gray} (hv : g1.Valid h) (hv' : g2.Valid k)
    {f1 f2 : Nat → Nat → Int} (hf : g1.Shows h f1) (hf' : g2.Shows k f2)
    (same : ∀ v, pixelCount g1.width g1.height f1 v = pixelCount g2.width g2.height f2 v)
    {lo hi : Int} (hlo : t.InRange lo) (hhi : t.InRange hi) (hle : lo ≤ hi)
    (hr : ∀ x y, x < g1.width → y < g1.height → lo ≤ f1 x y ∧ f1 x y ≤ hi) (hrange : 1 + hi ≤ 2147483647)
    (hrange2 : hi - lo < 2147483647) (junk junk' : Nat → Int) :
    ∃ v : Nat, ThresholdOps.computeOtsu K t junk g1 lo hi false h = .ok (v : Int) h ∧
      ThresholdOps.computeOtsu K t junk' g2 lo hi false k = .ok (v : Int) k := by
  have hr' : ∀ x y, x < g2.width → y < g2.height → lo ≤ f2 x y ∧ f2 x y ≤ hi := by
    intro x y hx hy
    have hp := pixelCount_pos f2 hx hy
    rw [← same] at hp
    by_contra c
    have : pixelCount g1.width g1.height f1 (f2 x y) = 0 := by
      unfold pixelCount
      rw [pixelSum_congr (g := fun _ _ => 0) (fun a b ha hb => by
        have := hr a b ha hb
        exact if_neg (fun e => c (by rw [← e]; exact this)))]
      unfold pixelSum
      simp only [sumN_zero]
    omega
  obtain ⟨v, e, o⟩ := C34_image (K := K) ht hv hf hlo hhi hle hr hrange hrange2 junk
  obtain ⟨v', e', o'⟩ := C34_image (K := K) ht hv' hf' hlo hhi hle hr' hrange hrange2 junk'
  have : v' = v := by
    simp only [same] at o
    exact IsOtsu_unique o' o
  rw [this] at e'
  exact ⟨v, e, e'⟩

/-- The values 1, 1, 6 and 6, 1, 1 in another shape. -/
example : (∀ v, v ∈ [0, 1, 2, 6] → pixelCount 3 1 (fun x _ => ([1, 1, 6] : List Int).getD x 0) v =
      pixelCount 1 3 (fun _ y => ([6, 1, 1] : List Int).getD y 0) v) ∧
    ThresholdOps.computeOtsu ℚ U8 (fun _ => 0) ⟨0, 3, 3, 1, 0, 3, false⟩ 0 7 false ⟨[some [1, 1, 6]]⟩ = .ok 1 ⟨[some [1, 1, 6]]⟩ ∧
    ThresholdOps.computeOtsu ℚ U8 (fun _ => 0) ⟨0, 3, 1, 3, 0, 1, false⟩ 0 7 false ⟨[some [6, 1, 1]]⟩ = .ok 1 ⟨[some [6, 1, 1]]⟩ := by
  decide +kernel

/-- The block Otsu filter: in every local region there are at least two values.  Missing for the full property: regions of one value,
for which it is false (`C117_otsu_refuted`). -/
theorem C117_otsu_partial {useLocal down : Bool} {z z' : Int}
    {config : ConfigLength K} {h k : Heap Int} {s1 s2 : Interleaved} {i1 o1 i2 o2 : Gray}
    {f : Nat → Nat → Int} {c : Int} (A : BlockArgs h s1 i1 o1 f) (B : BlockArgs k s2 i2 o2 (fun x y => f x y + c))
    (hb1 : s1.numBands = 256) (hb2 : s2.numBands = 256) (ew : i2.width = i1.width) (eh : i2.height = i1.height)
    {req : Nat} (h1 : 1 ≤ req) (hw : req ≤ i1.width) (hh : req ≤ i1.height)
    (hreq : ∀ h : Heap Int, config.computeI ((min i1.width i1.height : Nat) : K) h = .ok (req : Int) h)
    (hf : ∀ x y, x < i1.width → y < i1.height → 0 ≤ f x y ∧ f x y ≤ 255)
    (hfc : ∀ x y, x < i1.width → y < i1.height → 0 ≤ f x y + c ∧ f x y + c ≤ 255)
    (harea : i1.width * i1.height < 2147483648)
    (hsize : Grid.count i1.width req * Grid.count i1.height req * 256 < 4294967296)
    (two : ∀ i j, i < Grid.count i1.width req → j < Grid.count i1.height req → ∃ x y x' y',
      localLo useLocal i1.width req i ≤ x ∧ x < localHi useLocal i1.width req i ∧
      localLo useLocal i1.height req j ≤ y ∧ y < localHi useLocal i1.height req j ∧
      localLo useLocal i1.width req i ≤ x' ∧ x' < localHi useLocal i1.width req i ∧
      localLo useLocal i1.height req j ≤ y' ∧ y' < localHi useLocal i1.height req j ∧ f x y < f x' y') :
    ∃ b h' d k', Blocks.process (BlockOtsu.ops (ComputeOtsu.mk false (0 : K) down 1) useLocal) z config s1 i1 o1 h = .ok b h' ∧
      Blocks.process (BlockOtsu.ops (ComputeOtsu.mk false (0 : K) down 1) useLocal) z' config s2 i2 o2 k = .ok d k' ∧
      SamePicture h' o1 k' o2 i1.width i1.height := by
  obtain ⟨b, h', S, th, e1, p1, t1⟩ := C41_standard (K := K) (useLocal := useLocal) (down := down) (z := z) A hb1 h1 hw hh (hreq h) hf harea hsize
  obtain ⟨d, k', S', th', e2, p2, t2⟩ := C41_standard (K := K) (useLocal := useLocal) (down := down) (z := z') B hb2 h1 (by omega) (by omega)
    (by rw [ew, eh]; exact hreq k) (by rw [ew, eh]; exact hfc) (by rw [ew, eh]; exact harea) (by rw [ew, eh]; exact hsize)
  refine ⟨b, h', d, k', e1, e2, fun x y hx hy => ⟨_, t1.pix x y (by rw [A.width]; exact hx) (by rw [A.height]; exact hy), ?_⟩⟩
  rw [t2.pix x y (by rw [B.width]; omega) (by rw [B.height]; omega)]
  rw [ew, eh] at p2 ⊢
  have hi := (Grid.has_blockOf h1 hw hx).1
  have hj := (Grid.has_blockOf h1 hh hy).1
  generalize Grid.blockOf i1.width req x = i at *
  generalize Grid.blockOf i1.height req y = j at *
  have lx := (Grid.lo_le h1 hw (Grid.last_lt (u := useLocal) hi)).2
  have ly := (Grid.lo_le h1 hh (Grid.last_lt (u := useLocal) hj)).2
  change localHi useLocal i1.width req i ≤ _ at lx
  change localHi useLocal i1.height req j ≤ _ at ly
  obtain ⟨xa, ya, xb, yb, a1, a2, a3, a4, b1, b2, b3, b4, hab⟩ := two i j hi hj
  have key : (th' i j : Int) = th i j + c := by
    refine otsu_moves (K := K) (n := 256)
      (count := fun v => rectCount f v (localLo useLocal i1.width req i) (localHi useLocal i1.width req i)
          (localLo useLocal i1.height req j) (localHi useLocal i1.height req j))
      (count' := fun v => rectCount (fun x y => f x y + c) v (localLo useLocal i1.width req i) (localHi useLocal i1.width req i)
          (localLo useLocal i1.height req j) (localHi useLocal i1.height req j))
      (fun v => ?_) (fun v hv => ?_) (fun v => pixelCount_nonneg _ _ _ _) hab ?_ ?_ (p1 i j hi hj) (p2 i j hi hj)
    · beta_reduce
      unfold rectCount rectSum
      exact pixelSum_congr (fun x y _ _ => by
        beta_reduce
        congr 1
        exact propext (by omega))
    · by_contra cn
      apply hv
      beta_reduce
      unfold rectCount rectSum
      rw [pixelSum_congr (g := fun _ _ => 0) (fun a b ha hb => by
        beta_reduce
        have g1 := hf (localLo useLocal i1.width req i + a) (localLo useLocal i1.height req j + b) (by omega) (by omega)
        have g2 := hfc (localLo useLocal i1.width req i + a) (localLo useLocal i1.height req j + b) (by omega) (by omega)
        refine if_neg (fun e => cn ?_)
        rw [e] at g1 g2
        exact ⟨g1.1, by omega, g2.1, by omega⟩)]
      unfold pixelSum
      simp only [sumN_zero]
    · have := pixelCount_pos (w := localHi useLocal i1.width req i - localLo useLocal i1.width req i)
        (h := localHi useLocal i1.height req j - localLo useLocal i1.height req j)
        (x := xa - localLo useLocal i1.width req i) (y := ya - localLo useLocal i1.height req j)
        (fun x y => f (localLo useLocal i1.width req i + x) (localLo useLocal i1.height req j + y)) (by omega) (by omega)
      rw [show localLo useLocal i1.width req i + (xa - localLo useLocal i1.width req i) = xa by omega,
        show localLo useLocal i1.height req j + (ya - localLo useLocal i1.height req j) = ya by omega] at this
      exact this
    · have := pixelCount_pos (w := localHi useLocal i1.width req i - localLo useLocal i1.width req i)
        (h := localHi useLocal i1.height req j - localLo useLocal i1.height req j)
        (x := xb - localLo useLocal i1.width req i) (y := yb - localLo useLocal i1.height req j)
        (fun x y => f (localLo useLocal i1.width req i + x) (localLo useLocal i1.height req j + y)) (by omega) (by omega)
      rw [show localLo useLocal i1.width req i + (xb - localLo useLocal i1.width req i) = xb by omega,
        show localLo useLocal i1.height req j + (yb - localLo useLocal i1.height req j) = yb by omega] at this
      exact this
  have e2 : decide (f x y + c ≤ th' i j) = decide (f x y ≤ th i j) := decide_eq_decide.mpr (by omega)
  simp only [e2]

/-- A similar image: every block has two values. -/
example :
    (∀ i, i < Grid.count 5 2 → ∀ j, j < Grid.count 2 2 → ∃ x y x' y',
      localLo false 5 2 i ≤ x ∧ x < localHi false 5 2 i ∧ localLo false 2 2 j ≤ y ∧ y < localHi false 2 2 j ∧
      localLo false 5 2 i ≤ x' ∧ x' < localHi false 5 2 i ∧ localLo false 2 2 j ≤ y' ∧ y' < localHi false 2 2 j ∧
      ([1,2,9,8,7,3,4,5,5,7] : List Int).getD (y * 5 + x) 0 < ([1,2,9,8,7,3,4,5,5,7] : List Int).getD (y' * 5 + x') 0) := by
  intro i hi j hj
  have hi : i < 2 := hi
  have hj : j < 1 := hj
  have hi : i = 0 ∨ i = 1 := by omega
  have hj : j = 0 := by omega
  subst hj
  rcases hi with rfl | rfl
  · exact ⟨0, 0, 1, 0, by decide⟩
  · exact ⟨3, 0, 2, 0, by decide⟩

/-- What the filter does with it, and with the image with 5 more. -/
example :
    (match Blocks.process (BlockOtsu.ops (ComputeOtsu.mk false (0 : ℚ) true 1) false) 0 (ConfigLength.fixed (2 : ℚ)) ⟨2, 0, 0, 0, 256, 0, 0, false⟩ ⟨0, 10, 5, 2, 0, 5, false⟩ ⟨1, 10, 5, 2, 0, 5, false⟩
      ⟨[some [1,2,9,8,7,3,4,5,5,7], some [0,0,0,0,0,0,0,0,0,0], some []]⟩ with
      | .ok _ h => h.get 1
      | _ => none) = some [1,1,0,0,0,0,0,1,1,0] ∧
    (match Blocks.process (BlockOtsu.ops (ComputeOtsu.mk false (0 : ℚ) true 1) false) 0 (ConfigLength.fixed (2 : ℚ)) ⟨2, 0, 0, 0, 256, 0, 0, false⟩ ⟨0, 10, 5, 2, 0, 5, false⟩ ⟨1, 10, 5, 2, 0, 5, false⟩
      ⟨[some [6,7,14,13,12,8,9,10,10,12], some [0,0,0,0,0,0,0,0,0,0], some []]⟩ with
      | .ok _ h => h.get 1
      | _ => none) = some [1,1,0,0,0,0,0,1,1,0] := by
  decide +kernel

/-- The global Otsu filter from 0, when there are at least two values.  Missing for the full property: pictures of one value
(`C117_global_refuted`). -/
theorem C117_global_partial {t : IntTy} (ht : t = U8 ∨ t = U16 ∨ t = S16 ∨ t = S32) {h k : Heap Int} {i1 o1 i2 o2 : Gray}
    (v1 : i1.Valid h) (v2 : i2.Valid k) (w1 : o1.Valid h) (w2 : o2.Valid k) {f : Nat → Nat → Int} {c : Int}
    (s1 : i1.Shows h f) (s2 : i2.Shows k (fun x y => f x y + c)) (ew : i2.width = i1.width) (eh : i2.height = i1.height)
    {hi : Int} (hhi : t.InRange hi) (hle : 0 ≤ hi) (hrange : 1 + hi ≤ 2147483647)
    (hf : ∀ x y, x < i1.width → y < i1.height → 0 ≤ f x y ∧ f x y ≤ hi)
    (hfc : ∀ x y, x < i1.width → y < i1.height → 0 ≤ f x y + c ∧ f x y + c ≤ hi)
    (c1 : o1.CanBe i1.width i1.height) (c2 : o2.CanBe i1.width i1.height)
    (p1 : i1.SepOrSame o1 i1.width i1.height) (p2 : i2.SepOrSame o2 i1.width i1.height)
    (two : ∃ x y x' y', x < i1.width ∧ y < i1.height ∧ x' < i1.width ∧ y' < i1.height ∧ f x y < f x' y') (down : Bool) (junk junk' : Nat → Int) :
    ∃ r1 h' r2 k', ThresholdOps.globalOtsu K t junk 0 hi down i1 o1 h = .ok r1 h' ∧
      ThresholdOps.globalOtsu K t junk' 0 hi down i2 o2 k = .ok r2 k' ∧ SamePicture h' r1 k' r2 i1.width i1.height := by
  obtain ⟨v, r1, h', e1, q1, t1⟩ := C35_zero_min (K := K) ht v1 w1 s1 hhi hle hf hrange c1 p1 down junk
  obtain ⟨v', r2, k', e2, q2, t2⟩ := C35_zero_min (K := K) ht v2 w2 s2 hhi hle (by rw [ew, eh]; exact hfc) hrange (by rw [ew, eh]; exact c2)
    (by rw [ew, eh]; exact p2) down junk'
  rw [ew, eh] at q2 t2
  obtain ⟨xa, ya, xb, yb, ha1, ha2, hb1, hb2, hab⟩ := two
  have key : (v' : Int) = v + c := by
    refine otsu_moves (K := K) (n := (1 + hi).toNat) (count := fun u => pixelCount i1.width i1.height f u)
      (count' := fun u => pixelCount i1.width i1.height (fun x y => f x y + c) u)
      (fun v => ?_) (fun v hv => ?_) (fun v => pixelCount_nonneg _ _ _ _) hab (pixelCount_pos f ha1 ha2) (pixelCount_pos f hb1 hb2) q1 q2
    · beta_reduce
      unfold pixelCount
      exact pixelSum_congr (fun x y _ _ => by
        beta_reduce
        congr 1
        exact propext (by omega))
    · by_contra cn
      apply hv
      beta_reduce
      unfold pixelCount
      rw [pixelSum_congr (g := fun _ _ => 0) (fun a b ha hb => by
        beta_reduce
        have g1 := hf a b ha hb
        have g2 := hfc a b ha hb
        refine if_neg (fun e => cn ?_)
        rw [e] at g1 g2
        exact ⟨g1.1, by omega, g2.1, by omega⟩)]
      unfold pixelSum
      simp only [sumN_zero]
  refine ⟨r1, h', r2, k', e1, e2, fun x y hx hy => ⟨_, t1.pix x y hx hy, ?_⟩⟩
  rw [t2.pix x y hx hy]
  have : ((down = true ∧ f x y + c ≤ v') ∨ (down = false ∧ f x y + c > v')) =
      ((down = true ∧ f x y ≤ v) ∨ (down = false ∧ f x y > v)) := by
    rw [key]
    exact propext (by constructor <;> rintro (⟨a, b⟩ | ⟨a, b⟩) <;> first | exact Or.inl ⟨a, by omega⟩ | exact Or.inr ⟨a, by omega⟩)
  simp only [this]

/-- The pixels 1, 1, 4 and the pixels 3, 3, 6. -/
example :
    ThresholdOps.globalOtsu ℚ U8 (fun _ => 0) 0 7 true ⟨0, 3, 3, 1, 0, 3, false⟩ ⟨1, 3, 3, 1, 0, 3, false⟩
      (⟨[some [1,1,4], some [7,7,7]]⟩ : Heap Int) = .ok ⟨1, 3, 3, 1, 0, 3, false⟩ ⟨[some [1,1,4], some [1,1,0]]⟩ ∧
    ThresholdOps.globalOtsu ℚ U8 (fun _ => 0) 0 7 true ⟨0, 3, 3, 1, 0, 3, false⟩ ⟨1, 3, 3, 1, 0, 3, false⟩
      (⟨[some [3,3,6], some [7,7,7]]⟩ : Heap Int) = .ok ⟨1, 3, 3, 1, 0, 3, false⟩ ⟨[some [3,3,6], some [1,1,0]]⟩ := by
  decide +kernel

/-- The global Otsu filter on pictures of one value: all zero is marked, all one is not. -/
theorem C117_global_refuted :
    ThresholdOps.globalOtsu ℚ U8 (fun _ => 0) 0 7 true ⟨0, 2, 2, 1, 0, 2, false⟩ ⟨1, 2, 2, 1, 0, 2, false⟩
      (⟨[some [0,0], some [7,7]]⟩ : Heap Int) = .ok ⟨1, 2, 2, 1, 0, 2, false⟩ ⟨[some [0,0], some [1,1]]⟩ ∧
    ThresholdOps.globalOtsu ℚ U8 (fun _ => 0) 0 7 true ⟨0, 2, 2, 1, 0, 2, false⟩ ⟨1, 2, 2, 1, 0, 2, false⟩
      (⟨[some [1,1], some [7,7]]⟩ : Heap Int) = .ok ⟨1, 2, 2, 1, 0, 2, false⟩ ⟨[some [1,1], some [0,0]]⟩ := by
  decide +kernel

/-- The block Otsu filter on pictures of one value. -/
theorem C117_otsu_refuted :
    (match Blocks.process (BlockOtsu.ops (ComputeOtsu.mk false (0 : ℚ) true 1) false) 0 (ConfigLength.fixed (1 : ℚ)) ⟨2, 0, 0, 0, 256, 0, 0, false⟩
      ⟨0, 1, 1, 1, 0, 1, false⟩ ⟨1, 1, 1, 1, 0, 1, false⟩ ⟨[some [0], some [7], some []]⟩ with
      | .ok _ h => h.get 1
      | _ => none) = some [1] ∧
    (match Blocks.process (BlockOtsu.ops (ComputeOtsu.mk false (0 : ℚ) true 1) false) 0 (ConfigLength.fixed (1 : ℚ)) ⟨2, 0, 0, 0, 256, 0, 0, false⟩
      ⟨0, 1, 1, 1, 0, 1, false⟩ ⟨1, 1, 1, 1, 0, 1, false⟩ ⟨[some [1], some [7], some []]⟩ with
      | .ok _ h => h.get 1
      | _ => none) = some [0] := by
  decide +kernel

/-- Negative pixels are not averaged like others (the mean of -1, 0, -1 is rounded to 0): three rows -1,0,-1 are all marked, in three rows 0,1,0 the
ones are not. -/
theorem C117_signed_refuted :
    ThresholdOps.localMeanR float32 float64 0 (fun a b r s => BlurImageOps.meanInt S16 (intElem S16 (fun _ => 0)) a b r s)
        (fun v => float32 (v : ℚ)) (fun b => if b then 1 else 0) ⟨0, 9, 3, 3, 0, 3, false⟩ ⟨1, 9, 3, 3, 0, 3, false⟩ (ConfigLength.fixed 3) 1 true
        ⟨2, 9, 3, 3, 0, 3, false⟩ ⟨3, 9, 3, 3, 0, 3, false⟩
        (⟨[some [-1,0,-1,-1,0,-1,-1,0,-1], some [7,7,7,7,7,7,7,7,7], some [7,7,7,7,7,7,7,7,7], some [7,7,7,7,7,7,7,7,7]]⟩ : Heap Int) =
      .ok (⟨1, 9, 3, 3, 0, 3, false⟩, ⟨2, 9, 3, 3, 0, 3, false⟩, ⟨3, 9, 3, 3, 0, 3, false⟩)
        ⟨[some [-1,0,-1,-1,0,-1,-1,0,-1], some [1,1,1,1,1,1,1,1,1], some [0,0,0,0,0,0,0,0,0], some [0,0,0,0,0,0,0,0,0]]⟩ ∧
    ThresholdOps.localMeanR float32 float64 0 (fun a b r s => BlurImageOps.meanInt S16 (intElem S16 (fun _ => 0)) a b r s)
        (fun v => float32 (v : ℚ)) (fun b => if b then 1 else 0) ⟨0, 9, 3, 3, 0, 3, false⟩ ⟨1, 9, 3, 3, 0, 3, false⟩ (ConfigLength.fixed 3) 1 true
        ⟨2, 9, 3, 3, 0, 3, false⟩ ⟨3, 9, 3, 3, 0, 3, false⟩
        (⟨[some [0,1,0,0,1,0,0,1,0], some [7,7,7,7,7,7,7,7,7], some [7,7,7,7,7,7,7,7,7], some [7,7,7,7,7,7,7,7,7]]⟩ : Heap Int) =
      .ok (⟨1, 9, 3, 3, 0, 3, false⟩, ⟨2, 9, 3, 3, 0, 3, false⟩, ⟨3, 9, 3, 3, 0, 3, false⟩)
        ⟨[some [0,1,0,0,1,0,0,1,0], some [1,0,1,1,0,1,1,0,1], some [1,0,1,1,0,1,1,0,1], some [1,0,1,1,0,1,1,0,1]]⟩ := by
  decide +kernel

end Boof
