import Verif.Proofs.GaussRounding
import Verif.Props.Rounding
import Verif.Props.SigmaRounding
/-
Integer kernels with rounding.
-/
namespace Boof
open M
variable {V K : Type} [Field K] [LinearOrder K] [IsStrictOrderedRing K] [FloorRing K]

/-- As `IsIntKernel` with magnitudes up to 100, but the quotients may be wrong by `E` before they are rounded towards zero. -/
structure NearIntKernel (n : Nat) (c : Nat → K) (d : Nat → Int) (E : K) : Prop where
  bound : ∀ i, i < n → |d i| ≤ 100
  nonneg : ∀ i, i < n → 0 ≤ c i → 0 ≤ d i
  nonpos : ∀ i, i < n → c i ≤ 0 → d i ≤ 0
  order : ∀ i j, i < n → j < n → c i ≤ c j → d i ≤ d j
  opposite : ∀ i j, i < n → j < n → c i = -c j → d i = -d j
  largest : ∀ i, i < n → (∀ j, j < n → |c j| ≤ |c i|) → d i ≠ 0
  /-- the quotients by the smallest magnitude, or by a hundredth of the largest if that is more -/
  quotient : ∃ q mx mn, IsAbsMax n c mx ∧ IsAbsMin n c mn ∧ q = max mn (mx / 100) ∧
    ∀ i, i < n → ∃ r, |r - c i / q| ≤ E ∧ |(d i : K)| ≤ |r| ∧ |r| < |(d i : K)| + 1

theorem hundredth {rnd : K → Option K} {u η big : K} (R : Rounds rnd u η big) (hu : 1000 * u ≤ 1) (hη : 100 * η ≤ u) (hb : 1000 ≤ big) {mx : K}
    (hmx : 0 < mx) (hη2 : 100 * η ≤ u * mx) (hb2 : mx ≤ big) :
    ∃ f q0, rnd (1 / 100) = some f ∧ rnd (mx * f) = some q0 ∧ |q0 - mx / 100| ≤ 5 * u * (mx / 100) := by
  have hu0 := R.rel
  have hη0 := R.abs
  obtain ⟨f, ef, hf⟩ := R.near (1 / 100) (by rw [abs_of_pos (by norm_num)]; linarith)
  rw [abs_of_pos (by norm_num : (0 : K) < 1 / 100)] at hf
  have hum : 0 ≤ u * mx := mul_nonneg hu0 hmx.le
  have h1 : |mx * f - mx / 100| ≤ 2 * u * (mx / 100) := by
    rw [show mx * f - mx / 100 = mx * (f - 1 / 100) by ring, abs_mul, abs_of_pos hmx]
    have := mul_le_mul_of_nonneg_left (show |f - 1 / 100| ≤ 2 * u / 100 by linarith) hmx.le
    linarith
  have h3 := mul_le_mul_of_nonneg_right hu hmx.le
  have huu : u * (u * mx) ≤ 1 / 1000 * (u * mx) := mul_le_mul_of_nonneg_right (by linarith) hum
  obtain ⟨q0, e, hq⟩ := R.step (x := mx / 100) (y := mx * f) (A := mx / 100) (d := 2 * u * (mx / 100)) (by rw [abs_of_pos (by positivity)]) h1 (by linarith)
  refine ⟨f, q0, ef, e, le_trans hq ?_⟩
  have : u * (mx / 100 + 2 * u * (mx / 100)) = u * mx / 100 + 2 * (u * (u * mx)) / 100 := by ring
  linarith

theorem max_near {a b c e : K} (h : |b - c| ≤ e) : |max a b - max a c| ≤ e := by
  have h1 := abs_le.mp h
  have he : 0 ≤ e := le_trans (abs_nonneg _) h
  rw [abs_le]
  rcases max_cases a b with ⟨e1, q1⟩ | ⟨e1, q1⟩ <;> rcases max_cases a c with ⟨e2, q2⟩ | ⟨e2, q2⟩ <;> rw [e1, e2] <;> constructor <;> linarith

theorem intRounded {rnd : K → Option K} {u η big : K} (R : Rounds rnd u η big) (F : Format rnd) (hu : 1000 * u ≤ 1) (hη : 100 * η ≤ u)
    (hb : 1000 ≤ big) {n : Nat} {c : Nat → K} {mx mn q0 : K} (hmx : IsAbsMax n c mx) (hmn : IsAbsMin n c mn) (hpos : 0 < mx)
    (hq0 : |q0 - mx / 100| ≤ 5 * u * (mx / 100)) :
    0 < max mn q0 ∧ ∃ p : Nat → K, (∀ i, i < n → rnd (c i / max mn q0) = some (p i)) ∧ NearIntKernel n c (fun i => truncK (p i)) (610 * u) := by
  have hu0 := R.rel
  have hη0 := R.abs
  have hQ : 0 < max mn (mx / 100) := lt_of_lt_of_le (by positivity) (le_max_right _ _)
  have hq := max_near (a := mn) hq0
  have h1 : |max mn q0 - max mn (mx / 100)| ≤ 5 * u * max mn (mx / 100) := by
    have := mul_le_mul_of_nonneg_left (le_max_right mn (mx / 100)) (show 0 ≤ 5 * u by linarith)
    linarith
  have hmxq : max mn q0 ≤ mx := by
    refine max_le ?_ ?_
    · obtain ⟨i, hi, e⟩ := hmx.1
      rw [← e]; exact hmn.2 i hi
    · have := (abs_le.mp hq0).2
      have h3 := mul_le_mul_of_nonneg_right hu hpos.le
      linarith
  have hall : ∀ i, i < n → |c i / max mn (mx / 100)| ≤ 100 := by
    intro i hi
    rw [abs_div, abs_of_pos hQ, div_le_iff₀ hQ]
    have := hmx.2 i hi
    have := le_max_right mn (mx / 100)
    linarith
  have hQ2 : max mn (mx / 100) = max mn (mx / 100) := rfl
  generalize hQe : max mn (mx / 100) = Q at hQ h1 hall hQ2
  generalize max mn q0 = q at h1 hmxq
  have h5 := mul_le_mul_of_nonneg_right hu hQ.le
  have hq1 : 99 / 100 * Q ≤ q := by
    have := (abs_le.mp h1).1
    linarith
  have hq : 0 < q := by linarith
  have hex : ∀ i, ∃ p, i < n → rnd (c i / q) = some p ∧ |p - c i / Q| ≤ 610 * u := by
    intro i
    by_cases hi : i < n
    · have h6 : |c i / q - c i / Q| ≤ 506 * u := by
        have e : c i / q - c i / Q = (c i / Q) * ((Q - q) / q) := by field_simp
        have h7 : |(Q - q) / q| ≤ 506 / 100 * u := by
          rw [abs_div, abs_of_pos hq, div_le_iff₀ hq, abs_sub_comm]
          refine le_trans h1 ?_
          have := mul_le_mul_of_nonneg_left hq1 (show 0 ≤ 506 / 100 * u by linarith)
          have := mul_nonneg hu0 hQ.le
          linarith
        rw [e, abs_mul]
        have := mul_le_mul (hall i hi) h7 (abs_nonneg _) (by norm_num)
        linarith
      obtain ⟨p, ep, hp⟩ := R.step (x := c i / Q) (y := c i / q) (A := 100) (hall i hi) h6 (by linarith)
      have huu : u * u ≤ 1 / 1000 * u := mul_le_mul_of_nonneg_right (by linarith) hu0
      exact ⟨p, fun _ => ⟨ep, by linarith⟩⟩
    · exact ⟨0, fun q => absurd q hi⟩
  choose p hp using hex
  refine ⟨hq, p, fun i hi => (hp i hi).1, ?_⟩
  refine ⟨fun i hi => ?_, fun i hi h0 => ?_, fun i hi h0 => ?_, fun i j hi hj hij => ?_, fun i j hi hj hij => ?_, fun i hi hbig => ?_, ?_⟩
  · have h8 : |p i| < 101 := by
      have := abs_add_le (p i - c i / Q) (c i / Q)
      rw [sub_add_cancel] at this
      have := (hp i hi).2
      have := hall i hi
      linarith
    have h9 := (truncK_abs (p i)).1
    have h10 : |(truncK (p i) : K)| < 101 := by linarith
    rw [← Int.cast_abs] at h10
    have : |truncK (p i)| < 101 := by exact_mod_cast h10
    show |truncK (p i)| ≤ 100
    omega
  · have := truncK_mono (a := ((0 : Int) : K)) (b := p i) (by push_cast; exact F.nonneg (div_nonneg h0 hq.le) (hp i hi).1)
    rwa [truncK_int] at this
  · have := truncK_mono (b := ((0 : Int) : K)) (a := p i) (by
      push_cast; exact F.nonpos (div_nonpos_of_nonpos_of_nonneg h0 hq.le) (hp i hi).1)
    rwa [truncK_int] at this
  · exact truncK_mono (F.mono _ _ _ _ (div_le_div_of_nonneg_right hij hq.le) (hp i hi).1 (hp j hj).1)
  · show truncK (p i) = -truncK (p j)
    have h1 := (hp i hi).1
    rw [hij, neg_div, F.neg _ _ (hp j hj).1] at h1
    rw [← Option.some.inj h1, truncK_neg]
  · have habs : mx ≤ |c i| := by
      obtain ⟨i1, hi1, e⟩ := hmx.1
      rw [← e]; exact hbig i1 hi1
    show truncK (p i) ≠ 0
    rcases le_total 0 (c i) with h0 | h0
    · rw [abs_of_nonneg h0] at habs
      have := truncK_mono (a := ((1 : Int) : K)) (b := p i) (by
        push_cast
        exact F.mono _ _ _ _ (by rw [le_div_iff₀ hq]; linarith) F.one (hp i hi).1)
      rw [truncK_int] at this
      omega
    · rw [abs_of_nonpos h0] at habs
      have := truncK_mono (b := ((-1 : Int) : K)) (a := p i) (by
        push_cast
        exact F.mono _ _ _ _ (by rw [div_le_iff₀ hq]; linarith) (hp i hi).1 (F.neg _ _ F.one))
      rw [truncK_int] at this
      omega
  · exact ⟨Q, mx, mn, hmx, hmn, hQe.symm, fun i hi => ⟨p i, (hp i hi).2, truncK_abs (p i)⟩⟩

theorem toIntCoefR {n : Nat} {c : Nat → K} {p : Nat → K} {E : K} {t : IntTy} (hd : NearIntKernel n c (fun i => truncK (p i)) E)
    (hhi : (100 : Int) ≤ t.hi) (hlo0 : t.lo ≤ 0) (hlo : t.lo ≤ -100 ∨ ∀ i, i < n → 0 ≤ c i) {i : Nat} (hi : i < n) (h : Heap V) :
    (M.toInt t (p i) : M V Int) h = .ok (truncK (p i)) h := by
  unfold M.toInt
  obtain ⟨h1, h2⟩ := abs_le.mp (hd.bound i hi)
  rw [if_pos]
  · rfl
  · refine ⟨?_, by omega⟩
    rcases hlo with hlo | hlo
    · omega
    · have := hd.nonneg i hi (hlo i hi)
      omega

/-- `float_to_int` on a 1D kernel. -/
theorem convert1DR {rnd : K → Option K} {u η big : K} (R : Rounds rnd u η big) (F : Format rnd) (hu : 1000 * u ≤ 1) (hη : 100 * η ≤ u)
    (hb : 1000 ≤ big) (t : IntTy) (junk : Nat → Int) {k : Kernel K} {w o : Nat} {c : Nat → K} (hk : k.Is1D w o c) (ho : o < w)
    {i0 : Nat} (hi0 : i0 < w) (h0 : 100 * η ≤ u * |c i0|) (h00 : c i0 ≠ 0) (hbc : ∀ i, i < w → |c i| ≤ big)
    (hhi : (100 : Int) ≤ t.hi) (hlo0 : t.lo ≤ 0) (hlo : t.lo ≤ -100 ∨ ∀ i, i < w → 0 ≤ c i) (h : Heap V) :
    ∃ f k' d, rnd (1 / 100) = some f ∧ FactoryKernel.floatToInt1DR rnd (intElem t junk) t k f h = .ok k' h ∧ k'.Is1D w o d ∧
      NearIntKernel w c d (610 * u) := by
  obtain ⟨mx, e1, hmx⟩ := absMax_run hk.size (by omega) hk.coef h
  obtain ⟨mn, e2, hmn⟩ := absMin_run hk.size (by omega) hk.coef h
  have hpos : 0 < mx := lt_of_lt_of_le (abs_pos.mpr h00) (hmx.2 i0 hi0)
  obtain ⟨f, q0, ef, eq, hq0⟩ := hundredth R hu hη hb hpos (by
    have := mul_le_mul_of_nonneg_left (hmx.2 i0 hi0) R.rel
    linarith) (by
    obtain ⟨i, hi, e⟩ := hmx.1
    rw [← e]; exact hbc i hi)
  obtain ⟨hq, p, hp, hd⟩ := intRounded R F hu hη hb hmx hmn hpos hq0
  have e3 : FactoryKernel.quantumR rnd k f h = .ok (max mn q0) h := by
    unfold FactoryKernel.quantumR
    rw [M.bind_ok e1, M.bind_ok e2, optBind eq]
    rfl
  obtain ⟨k0, e0, hk0⟩ := new1D_run (intElem t junk) (memsetInt_zero t) ho h
  obtain ⟨k1, e4, hk1⟩ := fill1D hk0 (v := fun i => truncK (p i)) (h := h) (body := fun i k1 => do
    let v ← k.get i
    if max mn q0 = 0 then M.ub else do
      let p ← opt (rnd (v / max mn q0))
      let n ← M.toInt t p
      k1.put i n) (fun i k1 hi _ _ => by
      rw [M.bind_ok (get1D hk hi h), if_neg (ne_of_gt hq), optBind (hp i hi), M.bind_ok (toIntCoefR hd hhi hlo0 hlo hi h)])
  refine ⟨f, k1, _, ef, ?_, hk1, hd⟩
  unfold FactoryKernel.floatToInt1DR
  rw [hk.width, hk.offset]
  exact (M.bind_ok e0).trans ((M.bind_ok e3).trans e4)

end Boof
