import Verif.Props.IntRounding
import Verif.Proofs.BlurRounding
/-
2D Gaussian kernels with rounding.
-/
namespace Boof
open M
variable {V K : Type} [Field K] [LinearOrder K] [IsStrictOrderedRing K] [FloorRing K]

theorem flat2 {w x : Nat} (hx : x < w) (y : Nat) : (y * w + x) % w = x ∧ (y * w + x) / w = y := by
  rw [Nat.mul_comm, Nat.mul_add_mod, Nat.mod_eq_of_lt hx, Nat.mul_add_div (by omega), Nat.div_eq_of_lt hx, Nat.add_zero]
  exact ⟨rfl, rfl⟩

theorem coef_flat {S : Type} {k : Kernel S} {w o : Nat} {c : Nat → Nat → S} (hk : k.Is2D w o c) (hw : 0 < w) (n : Nat) (hn : n < w * w) :
    k.data.data[n]? = some (c (n % w) (n / w)) := by
  have := hk.coef (n % w) (n / w) (Nat.mod_lt _ hw) (Nat.div_lt_of_lt_mul hn)
  rwa [Nat.mul_comm, Nat.div_add_mod] at this

/-- `normalize` on a 2D kernel: row 0 is divided by the rounded sum. -/
theorem normalize2DR {rnd : K → Option K} {k : Kernel K} {w o : Nat} {c : Nat → Nat → K} {v : Nat → K} {S : K} (hk : k.Is2D w o c) (hw : 0 < w)
    (eS : foldO (w * w) (0 : K) (fun n t => rnd (t + c (n % w) (n / w))) = some S) (hS : S ≠ 0) (hv : ∀ x, x < w → rnd (c x 0 / S) = some (v x))
    (h : Heap V) : ∃ k', FactoryKernel.normalizeR rnd k h = .ok k' h ∧ k'.Is2D w o (fun x y => if y = 0 then v x else c x y) := by
  have hc := coef_flat hk hw
  have hl : w ≤ w * w := Nat.le_mul_of_pos_left w hw
  have hlen := hk.length
  unfold FactoryKernel.normalizeR
  rw [M.bind_ok (kernelSumO_run k (c := fun n => c (n % w) (n / w)) hk.size hc eS h), hk.width]
  obtain ⟨k2, e, f⟩ := (Kernel.Filled.refl k v).loop (n := w) (h := h)
    (body := fun i k => do
      let v ← k.get i
      if S = 0 then M.ub else do
        let q ← opt (rnd (v / S))
        k.put i q) (R := fun i j => j = i) (by
    intro i k1 hi hf
    have : k1.get i h = .ok (c i 0) h := by
      unfold Kernel.get
      rw [hf.no, hc i (by omega), Nat.mod_eq_of_lt hi, Nat.div_eq_of_lt hi]
      · rfl
      · rintro (q | ⟨i', a, b⟩)
        · exact q
        · omega
    rw [M.bind_ok this, if_neg hS, optBind (hv i hi)]
    exact hf.put (by omega) rfl h)
  refine ⟨k2, e, by rw [f.width, hk.width], by rw [f.offset, hk.offset], by rw [f.size, hk.size], fun x y hx hy => ?_⟩
  by_cases q : y = 0
  · subst q
    rw [if_pos rfl, Nat.zero_mul, Nat.zero_add]
    exact f.yes x (Or.inr ⟨x, hx, rfl⟩) (by omega)
  · rw [if_neg q, f.no, hk.coef x y hx hy]
    have := Nat.le_mul_of_pos_left w (Nat.pos_of_ne_zero q)
    rintro (q | ⟨i', a, b⟩)
    · exact q
    · omega

/-- `gaussian2D` from the kernel of `gaussian1D`. -/
theorem gaussian2DR_run {rnd rndE : K → Option K} (E : GrowArray.Elem K) (hz : E.ms E.zero = E.zero) {ex : K → K} {c0 sigma : K} {w : Nat} (hw : 0 < w)
    (hw2 : w * w < P32) {h : Heap V} {seed : Kernel K} {s : Nat → K} {p : Nat → Nat → K} {v : Nat → K} {S : K}
    (e1 : FactoryKernel.gaussian1DR rnd rndE E ex c0 sigma w h = .ok seed h) (hseed : seed.Is1D w (w / 2) s)
    (hp : ∀ x y, x < w → y < w → rndE (s x * s y) = some (p x y))
    (eS : foldO (w * w) (0 : K) (fun n t => rndE (t + p (n % w) (n / w))) = some S) (hS : S ≠ 0) (hv : ∀ x, x < w → rndE (p x 0 / S) = some (v x)) :
    ∃ k, FactoryKernel.gaussian2DR rnd rndE E ex c0 sigma w h = .ok k h ∧ k.Is2D w (w / 2) (fun x y => if y = 0 then v x else p x y) := by
  have hwl : w < P32 := Nat.lt_of_le_of_lt (Nat.le_mul_of_pos_left w hw) hw2
  have e3 : (w : Int).tdiv 2 = ((w / 2 : Nat) : Int) := by
    rw [Int.tdiv_eq_ediv_of_nonneg (by omega)]; rfl
  obtain ⟨k0, e0, hk0⟩ := new2D_run E hz (o := w / 2) (w := w) (by omega) hw2 h
  obtain ⟨k1, e2, hk1⟩ := fill2D hk0 (v := p) (h := h) (px := fun i j => i) (py := fun i j => j)
    (body := fun i j k => do
      let a ← Kernel1D.at' seed i
      let b ← Kernel1D.at' seed j
      let p ← opt (rndE (a * b))
      Kernel2D.setAt k i j p) (fun i j hi hj => ⟨hi, hj⟩) (fun x y hx hy => ⟨x, y, hx, hy, rfl, rfl⟩) (by
    intro i j k1 hi hj hkw hks
    rw [M.bind_ok (at1D hseed hi h), M.bind_ok (at1D hseed hj h), optBind (hp i j hi hj)]
    have := idx2_lt hi hj
    unfold Kernel2D.setAt
    rw [hkw, hks, wrap32_of_lt (by omega), if_neg (by omega), if_neg (by omega)])
  obtain ⟨k2, e4, hk2⟩ := normalize2DR hk1 hw eS hS hv h
  refine ⟨k2, ?_, hk2⟩
  unfold FactoryKernel.gaussian2DR
  rw [e3, toU32_of_nonneg (by omega) (by omega), toU32_of_nonneg (by omega) (by omega), Int.toNat_natCast, Int.toNat_natCast]
  exact (M.bind_ok e1).trans ((M.bind_ok e0).trans ((M.bind_ok e2).trans e4))

/-- `float_to_int` on a 2D kernel. -/
theorem convert2DR {rnd : K → Option K} {u η big : K} (R : Rounds rnd u η big) (F : Format rnd) (hu : 1000 * u ≤ 1) (hη : 100 * η ≤ u)
    (hb : 1000 ≤ big) (t : IntTy) (junk : Nat → Int) {k : Kernel K} {w o : Nat} {c : Nat → Nat → K} (hk : k.Is2D w o c) (ho : o < w) (hw : w * w < P32)
    {x0 y0 : Nat} (hx0 : x0 < w) (hy0 : y0 < w) (h0 : 100 * η ≤ u * |c x0 y0|) (h00 : c x0 y0 ≠ 0) (hbc : ∀ x y, x < w → y < w → |c x y| ≤ big)
    (hhi : (100 : Int) ≤ t.hi) (hlo0 : t.lo ≤ 0) (hlo : t.lo ≤ -100 ∨ ∀ x y, x < w → y < w → 0 ≤ c x y) (h : Heap V) :
    ∃ f k' d, rnd (1 / 100) = some f ∧ FactoryKernel.floatToInt2DR rnd (intElem t junk) t k f h = .ok k' h ∧ k'.Is2D w o d ∧
      NearIntKernel (w * w) (fun n => c (n % w) (n / w)) (fun n => d (n % w) (n / w)) (610 * u) := by
  have hw0 : 0 < w := by omega
  have hc := coef_flat hk hw0
  have hm : ∀ n, n < w * w → n % w < w ∧ n / w < w := fun n hn => ⟨Nat.mod_lt _ hw0, Nat.div_lt_of_lt_mul hn⟩
  obtain ⟨mx, e1, hmx⟩ := absMax_run (c := fun n => c (n % w) (n / w)) hk.size (Nat.mul_pos hw0 hw0) hc h
  obtain ⟨mn, e2, hmn⟩ := absMin_run (c := fun n => c (n % w) (n / w)) hk.size (Nat.mul_pos hw0 hw0) hc h
  have hmx0 : |c x0 y0| ≤ mx := by
    have := hmx.2 _ (idx2_lt hx0 hy0)
    beta_reduce at this
    rwa [(flat2 hx0 y0).1, (flat2 hx0 y0).2] at this
  have hpos : 0 < mx := lt_of_lt_of_le (abs_pos.mpr h00) hmx0
  obtain ⟨f, q0, ef, eq, hq0⟩ := hundredth R hu hη hb hpos (by
    have := mul_le_mul_of_nonneg_left hmx0 R.rel
    linarith) (by
    obtain ⟨i, hi, e⟩ := hmx.1
    rw [← e]; exact hbc _ _ (hm i hi).1 (hm i hi).2)
  obtain ⟨hq, p, hp, hd⟩ := intRounded R F hu hη hb hmx hmn hpos hq0
  have e3 : FactoryKernel.quantumR rnd k f h = .ok (max mn q0) h := by
    unfold FactoryKernel.quantumR
    rw [M.bind_ok e1, M.bind_ok e2, optBind eq]
    rfl
  obtain ⟨k0, e0, hk0⟩ := new2D_run (intElem t junk) (memsetInt_zero t) ho hw h
  obtain ⟨k1, e4, hk1⟩ := fill2D hk0 (v := fun x y => truncK (p (y * w + x))) (h := h) (px := fun i j => j) (py := fun i j => i)
    (body := fun i j k1 => do
      let v ← Kernel2D.at' k j i
      if max mn q0 = 0 then M.ub else do
        let p ← opt (rnd (v / max mn q0))
        let n ← M.toInt t p
        Kernel2D.setAt k1 j i n) (fun i j hi hj => ⟨hj, hi⟩) (fun x y hx hy => ⟨y, x, hy, hx, rfl, rfl⟩) (by
    intro i j k1 hi hj hkw hks
    have hpp := hp _ (idx2_lt hj hi)
    beta_reduce at hpp
    rw [(flat2 hj i).1, (flat2 hj i).2] at hpp
    rw [M.bind_ok (at2D hk hw hj hi h), if_neg (ne_of_gt hq), optBind hpp,
      M.bind_ok (toIntCoefR hd hhi hlo0 (hlo.imp id (fun q n hn => q _ _ (hm n hn).1 (hm n hn).2)) (idx2_lt hj hi) h)]
    have := idx2_lt hj hi
    unfold Kernel2D.setAt
    rw [hkw, hks, wrap32_of_lt (by omega)]
    beta_reduce
    rw [if_neg (by omega), if_neg (by omega)])
  refine ⟨f, k1, _, ef, ?_, hk1, ?_⟩
  · unfold FactoryKernel.floatToInt2DR
    rw [hk.width, hk.offset]
    exact (M.bind_ok e0).trans ((M.bind_ok e3).trans e4)
  · have : (fun n => (fun x y => truncK (p (y * w + x))) (n % w) (n / w)) = fun n => truncK (p n) := by
      funext n
      beta_reduce
      rw [Nat.mul_comm, Nat.div_add_mod]
    rw [this]
    exact hd

/-- Products of coefficients with errors. -/
theorem outer_near {u η g g' c c' W : ℝ} (hu : 0 ≤ u) (hg : 0 ≤ g) (hg' : 0 ≤ g') (hW : 1 ≤ W) (hsmall : 4000 * u ≤ 1) (hη : 4 * η ≤ u)
    (h : |c - g| ≤ 24 * (1 + W * g) * u) (h' : |c' - g'| ≤ 24 * (1 + W * g') * u) (hg1 : g ≤ 1) (hg1' : g' ≤ 1) {p : ℝ}
    (hp : |p - c * c'| ≤ u * |c * c'| + η) : |p - g * g'| ≤ 50 * ((1 + W * g) * (1 + W * g')) * u := by
  have hWg : g ≤ W * g := le_mul_of_one_le_left hg hW
  have hWg' : g' ≤ W * g' := le_mul_of_one_le_left hg' hW
  generalize ha : 1 + W * g = a at *
  generalize ha' : 1 + W * g' = a' at *
  have ha1 : 1 ≤ a := by linarith
  have ha1' : 1 ≤ a' := by linarith
  have hga : g ≤ a := by linarith
  have hga' : g' ≤ a' := by linarith
  have hA : 1 ≤ a * a' := by nlinarith
  have hd : |c * c' - g * g'| ≤ 48.2 * (a * a') * u := by
    have e : c * c' - g * g' = (c - g) * (c' - g') + (c - g) * g' + g * (c' - g') := by ring
    rw [e]
    have t1 : |(c - g) * (c' - g')| ≤ (24 * a * u) * (24 * a' * u) := by
      rw [abs_mul]; exact mul_le_mul h h' (abs_nonneg _) (le_trans (abs_nonneg _) h)
    have t2 : |(c - g) * g'| ≤ (24 * a * u) * a' := by
      rw [abs_mul, abs_of_nonneg hg']; exact mul_le_mul h hga' hg' (le_trans (abs_nonneg _) h)
    have t3 : |g * (c' - g')| ≤ a * (24 * a' * u) := by
      rw [abs_mul, abs_of_nonneg hg]; exact mul_le_mul hga h' (abs_nonneg _) (by linarith)
    have s1 := abs_add_le ((c - g) * (c' - g') + (c - g) * g') (g * (c' - g'))
    have s2 := abs_add_le ((c - g) * (c' - g')) ((c - g) * g')
    have q : (24 * a * u) * (24 * a' * u) ≤ 0.2 * (a * a') * u := by
      have := mul_le_mul_of_nonneg_left hsmall (show 0 ≤ a * a' * u by positivity)
      nlinarith
    nlinarith
  have hcc : |c * c'| ≤ 1 + 48.2 * (a * a') * u := by
    have := abs_add_le (c * c' - g * g') (g * g')
    rw [sub_add_cancel, abs_of_nonneg (mul_nonneg hg hg')] at this
    have : g * g' ≤ 1 := by nlinarith
    linarith
  have h1 := abs_add_le (p - c * c') (c * c' - g * g')
  rw [sub_add_sub_cancel] at h1
  have h2 : u * |c * c'| ≤ u * (1 + 48.2 * (a * a') * u) := mul_le_mul_of_nonneg_left hcc hu
  have h3 : u * (1 + 48.2 * (a * a') * u) ≤ 1.02 * (a * a') * u := by
    have := mul_le_mul_of_nonneg_left hsmall (show 0 ≤ a * a' * u by positivity)
    have := mul_le_mul_of_nonneg_right hA hu
    nlinarith
  have h4 := mul_le_mul_of_nonneg_right hA hu
  linarith

end Boof
