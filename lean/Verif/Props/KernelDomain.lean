import Verif.Props.Kernel
/-
C42, C45: 2D kernels of every width, also those whose number of coefficients does not fit into 32 bits.
-/
namespace Boof
open M

section
variable {V S : Type}

/-- A loop one of whose steps throws, whatever the state, and whose other steps go on or throw, throws. -/
theorem loopS_throws {σ : Type} {n : Nat} {s0 : σ} {body : Nat → σ → M V σ} {h : Heap V} (I : σ → Prop) (h0 : I s0)
    (step : ∀ i s, i < n → I s → body i s h = .throw h ∨ ∃ s', body i s h = .ok s' h ∧ I s')
    (bad : ∃ i, i < n ∧ ∀ s, I s → body i s h = .throw h) : M.loopS n s0 body h = .throw h := by
  obtain ⟨i, hi, hb⟩ := bad
  have run : ∀ m, m ≤ n → M.loopS m s0 body h = .throw h ∨ (∃ s, M.loopS m s0 body h = .ok s h ∧ I s ∧ m ≤ i) := by
    intro m hm
    induction m with
    | zero => exact Or.inr ⟨s0, rfl, h0, Nat.zero_le _⟩
    | succ m ih =>
      rcases ih (by omega) with e | ⟨s, e, hs, hmi⟩
      · exact Or.inl (M.bind_throw e)
      · rcases Nat.lt_or_ge m i with c | c
        · rcases step m s (by omega) hs with e' | ⟨s', e', hs'⟩
          · exact Or.inl ((M.bind_ok e).trans e')
          · exact Or.inr ⟨s', (M.bind_ok e).trans e', hs', c⟩
        · have : m = i := by omega
          subst this
          exact Or.inl ((M.bind_ok e).trans (hb s hs))
  rcases run n (Nat.le_refl n) with e | ⟨s, -, -, c⟩
  · exact e
  · omega

/-- **C42 for every width.** A 2D kernel of `w` rows has room for `w*w` modulo 2^32 coefficients, all zero; reading `(x,y)` outside this
room or outside the kernel throws. -/
theorem C42_new2D_all (E : GrowArray.Elem S) (hz : E.ms E.zero = E.zero) {w o : Nat} (ho : o < w) (h : Heap V) :
    ∃ k, Kernel2D.new E w o h = .ok k h ∧ k.width = w ∧ k.offset = o ∧ k.data.size = w * w % 4294967296 ∧
      k.data.size ≤ k.data.data.length ∧
      ∀ x y, Kernel2D.at' k x y h =
        if x < w ∧ y < w ∧ (y * w + x) % 4294967296 < w * w % 4294967296 then .ok E.zero h else .throw h := by
  obtain ⟨a0, a, e0, e1, e2, e3, e4, -⟩ := fresh_array E hz (wrap32 (w * w))
  have hsz : a.size = w * w % 4294967296 := e2
  refine ⟨⟨w, o, a⟩, ?_, rfl, rfl, hsz, by rw [e2]; exact e3, fun x y => ?_⟩
  · unfold Kernel2D.new
    rw [if_neg (by omega)]
    exact (M.bind_ok (ofGrow_ok e0 h)).trans ((M.bind_ok (ofGrow_ok e1 h)).trans rfl)
  · have ew : wrap32 (y * w + x) = (y * w + x) % 4294967296 := rfl
    unfold Kernel2D.at'
    simp only [ew, hsz]
    by_cases c : x < w ∧ y < w ∧ (y * w + x) % 4294967296 < w * w % 4294967296
    · rw [if_pos c, if_neg (by omega), if_neg (by omega)]
      unfold Kernel.get
      have : a.data[(y * w + x) % 4294967296]? = some E.zero := e4 _ (by
        have : wrap32 (w * w) = w * w % 4294967296 := rfl
        omega)
      simp only [this]; rfl
    · rw [if_neg c]
      by_cases q : x ≥ w ∨ y ≥ w
      · rw [if_pos q]; rfl
      · rw [if_neg q, if_pos (by omega)]; rfl

example (h : Heap V) : ∃ k, Kernel2D.new (intElem S32 (fun _ => 9)) 65537 3 h = .ok k h ∧ k.data.size = 131073 := by
  obtain ⟨k, e, -, -, hs, -⟩ := C42_new2D_all (intElem S32 (fun _ => 9)) (memsetInt_zero S32) (w := 65537) (o := 3) (by decide) h
  exact ⟨k, e, hs⟩

end

variable {V K : Type} [Field K] [LinearOrder K] [IsStrictOrderedRing K] [FloorRing K]

/-- **C45, large widths.** `gaussian2D(sigma,width)` throws whenever `width*width` does not fit into 32 bits. -/
theorem C45_gaussian2D_large (E : GrowArray.Elem K) (hz : E.ms E.zero = E.zero) {ex : K → K} {c0 : K} (hc0 : 0 < c0)
    (hex : ∀ x, 0 < ex x) (hmono : ∀ x y, x < y → ex x < ex y) {sigma : K} (hs : 0 < sigma) {w : Nat} (hw : P32 ≤ w * w)
    (hw2 : w < 2147483648) (h : Heap V) : FactoryKernel.gaussian2D E ex c0 sigma w h = .throw h := by
  have hw0 : 0 < w := by
    rcases Nat.eq_zero_or_pos w with e | e
    · subst e; unfold P32 at hw; omega
    · exact e
  obtain ⟨seed, s, e1, hseed, -⟩ := C45_gaussian1D E hz hc0 hex hmono hs hw0 hw2 h
  have e3 : (w : Int).tdiv 2 = ((w / 2 : Nat) : Int) := by
    rw [Int.tdiv_eq_ediv_of_nonneg (by omega)]; rfl
  obtain ⟨k0, e0, hkw, -, hks, hkl, -⟩ := C42_new2D_all E hz (w := w) (o := w / 2) (by omega) h
  -- the first coefficient without room
  have hsize : w * w % 4294967296 < w * w := by unfold P32 at hw; omega
  have hx : w * w % 4294967296 % w < w := Nat.mod_lt _ hw0
  have hy : w * w % 4294967296 / w < w := Nat.div_lt_of_lt_mul hsize
  have hxy : w * w % 4294967296 / w * w + w * w % 4294967296 % w = w * w % 4294967296 := by
    rw [Nat.mul_comm]; exact Nat.div_add_mod _ _
  let I : Kernel K → Prop := fun k => k.width = w ∧ k.data.size = w * w % 4294967296 ∧ k.data.size ≤ k.data.data.length
  have hstep : ∀ i j k, i < w → j < w → I k →
      (do let a ← Kernel1D.at' seed i
          let b ← Kernel1D.at' seed j
          Kernel2D.setAt k i j (a * b) : M V (Kernel K)) h = .throw h ∨
      ∃ k', (do let a ← Kernel1D.at' seed i
                let b ← Kernel1D.at' seed j
                Kernel2D.setAt k i j (a * b) : M V (Kernel K)) h = .ok k' h ∧ I k' := by
    intro i j k hi hj hI
    rw [M.bind_ok (at1D hseed hi h), M.bind_ok (at1D hseed hj h)]
    obtain ⟨i1, i2, i3⟩ := hI
    unfold Kernel2D.setAt
    rw [i1, if_neg (by omega)]
    by_cases c : wrap32 (j * w + i) ≥ k.data.size
    · rw [if_pos c]; exact Or.inl rfl
    · rw [if_neg c]
      unfold Kernel.put
      rw [if_pos (by omega)]
      refine Or.inr ⟨_, rfl, i1, i2, ?_⟩
      simpa using i3
  have hloop : M.loopS w k0 (fun i k => M.loopS w k (fun j k => do
      let a ← Kernel1D.at' seed i
      let b ← Kernel1D.at' seed j
      Kernel2D.setAt k i j (a * b))) h = .throw h := by
    refine loopS_throws I ⟨hkw, hks, hkl⟩ (fun i k hi hk => ?_) ⟨_, hx, fun k hk => ?_⟩
    · -- a row goes on or throws
      have run : ∀ m, m ≤ w → M.loopS m k (fun j k => do
          let a ← Kernel1D.at' seed i
          let b ← Kernel1D.at' seed j
          Kernel2D.setAt k i j (a * b)) h = .throw h ∨ ∃ k', M.loopS m k (fun j k => do
          let a ← Kernel1D.at' seed i
          let b ← Kernel1D.at' seed j
          Kernel2D.setAt k i j (a * b)) h = .ok k' h ∧ I k' := by
        intro m hm
        induction m with
        | zero => exact Or.inr ⟨k, rfl, hk⟩
        | succ m ih =>
          rcases ih (by omega) with e | ⟨k', e, hk'⟩
          · exact Or.inl (M.bind_throw e)
          · rcases hstep i m k' hi (by omega) hk' with e' | ⟨k'', e', hk''⟩
            · exact Or.inl ((M.bind_ok e).trans e')
            · exact Or.inr ⟨k'', (M.bind_ok e).trans e', hk''⟩
      exact run w (Nat.le_refl w)
    · refine loopS_throws I hk (fun j k hj hk => hstep _ j k hx hj hk) ⟨_, hy, fun k hk => ?_⟩
      rw [M.bind_ok (at1D hseed hx h), M.bind_ok (at1D hseed hy h)]
      obtain ⟨i1, i2, i3⟩ := hk
      unfold Kernel2D.setAt
      rw [i1, if_neg (by omega), hxy, if_pos]
      · rfl
      · rw [i2]; unfold wrap32 P32; omega
  unfold FactoryKernel.gaussian2D
  rw [e3, toU32_of_nonneg (by omega) (by unfold P32; omega), toU32_of_nonneg (by omega) (by unfold P32; omega), Int.toNat_natCast,
    Int.toNat_natCast]
  exact (M.bind_ok e1).trans ((M.bind_ok e0).trans (M.bind_throw hloop))

example (h : Heap V) : FactoryKernel.gaussian2D (⟨id, 8, 0, fun _ => 7⟩ : GrowArray.Elem ℝ) Real.exp 2.5066282746310 1 (65536 : Nat) h = .throw h :=
  C45_gaussian2D_large _ rfl (by norm_num) Real.exp_pos (fun _ _ hxy => Real.exp_lt_exp.mpr hxy) one_pos (by decide) (by decide) h

/-- **C45, widths which are not positive.** `gaussian2D(sigma,width)` throws, except that a width of -1 is undefined behaviour. -/
theorem C45_gaussian2D_nonpos (E : GrowArray.Elem K) (hz : E.ms E.zero = E.zero) (hz0 : E.zero = 0) {ex : K → K} {c0 : K} (hc0 : 0 < c0)
    (hex : ∀ x, 0 < ex x) (hmono : ∀ x y, x < y → ex x < ex y) {sigma : K} (hs : 0 < sigma)
    (hr2 : 2 * ⌈(5 * sigma - 1) / 2⌉ + 1 < 2147483648) {width : Int} (hw : width ≤ 0) (hw2 : -2147483648 ≤ width) (h : Heap V) :
    FactoryKernel.gaussian2D E ex c0 sigma width h = if width = -1 then .ub else .throw h := by
  obtain ⟨-, seed, c, e, -⟩ := C45_gaussian1D_sigma E hz hc0 hex hmono hs hw rfl hr2 h
  have hn : width.toNat = 0 := by omega
  unfold FactoryKernel.gaussian2D
  by_cases c : width = -1
  · subst c
    rw [if_pos rfl]
    have e1 : toU32 (-1) = 4294967295 := by decide
    have e2 : toU32 ((-1 : Int).tdiv 2) = 0 := by decide
    rw [e1, e2, hn]
    obtain ⟨a0, a, f0, f1, f2, f3, f4, -⟩ := fresh_array E hz (wrap32 (4294967295 * 4294967295))
    have hs1 : a.size = 1 := f2
    have hnew : Kernel2D.new E 4294967295 0 h = .ok ⟨4294967295, 0, a⟩ h := by
      unfold Kernel2D.new
      rw [if_neg (by omega)]
      exact (M.bind_ok (ofGrow_ok f0 h)).trans ((M.bind_ok (ofGrow_ok f1 h)).trans rfl)
    refine (M.bind_ok e).trans ((M.bind_ok hnew).trans ?_)
    have hl : 0 < a.data.length := by rw [f2] at hs1; omega
    have h0 : a.data[0]? = some 0 := by rw [f4 0 hl, hz0]
    have hsum : (⟨4294967295, 0, a⟩ : Kernel K).sumK h = .ok 0 h := by
      unfold Kernel.sumK Kernel.sum
      simp only [hs1]
      show (M.loopS 1 _ _ : M V K) h = _
      simp only [M.loopS, Kernel.get, h0]
      show Res.ok (0 + 0 : K) h = _
      rw [add_zero]
    show (do let k ← (Pure.pure ⟨4294967295, 0, a⟩ : M V (Kernel K)); FactoryKernel.normalize k) h = _
    show FactoryKernel.normalize (⟨4294967295, 0, a⟩ : Kernel K) h = _
    unfold FactoryKernel.normalize
    refine (M.bind_ok hsum).trans ?_
    have ub : ∀ m, M.loopS (m + 1) (⟨4294967295, 0, a⟩ : Kernel K) (fun i k => do
        let v ← k.get i
        if (0 : K) = 0 then M.ub else k.put i (v / 0)) h = .ub := by
      intro m
      induction m with
      | zero =>
        have hg : (⟨4294967295, 0, a⟩ : Kernel K).get 0 h = .ok 0 h := by unfold Kernel.get; rw [h0]; rfl
        show (do
          let v ← (⟨4294967295, 0, a⟩ : Kernel K).get 0
          if (0 : K) = 0 then M.ub else (⟨4294967295, 0, a⟩ : Kernel K).put 0 (v / 0)) h = .ub
        rw [M.bind_ok hg, if_pos rfl]; rfl
      | succ m ih => exact M.bind_ub ih
    exact ub 4294967294
  · rw [if_neg c]
    refine (M.bind_ok e).trans (M.bind_throw ?_)
    unfold Kernel2D.new
    rw [if_pos]
    · rfl
    · have h1 : -(width.tdiv 2) = (-width) / 2 := by
        rw [← Int.neg_tdiv, Int.tdiv_eq_ediv_of_nonneg (by omega)]
      unfold toU32 P32
      omega

example (h : Heap V) : FactoryKernel.gaussian2D (⟨id, 8, 0, fun _ => 7⟩ : GrowArray.Elem ℝ) Real.exp 2.5066282746310 1 (-1) h = .ub ∧
    FactoryKernel.gaussian2D (⟨id, 8, 0, fun _ => 7⟩ : GrowArray.Elem ℝ) Real.exp 2.5066282746310 1 (-2) h = .throw h := by
  have r : 2 * ⌈((5:ℝ) * 1 - 1) / 2⌉ + 1 < 2147483648 := by
    have : ⌈((5:ℝ) * 1 - 1) / 2⌉ = 2 := by rw [Int.ceil_eq_iff]; norm_num
    rw [this]; decide
  exact ⟨C45_gaussian2D_nonpos _ rfl rfl (by norm_num) Real.exp_pos (fun _ _ hxy => Real.exp_lt_exp.mpr hxy) one_pos r (by decide) (by decide) h,
    C45_gaussian2D_nonpos _ rfl rfl (by norm_num) Real.exp_pos (fun _ _ hxy => Real.exp_lt_exp.mpr hxy) one_pos r (by decide) (by decide) h⟩

end Boof
