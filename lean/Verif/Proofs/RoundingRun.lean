import Verif.Proofs.Rounding
/-
The mean blur with rounding.
-/
namespace Boof
open M
variable {V K : Type} [Field K] [LinearOrder K] [IsStrictOrderedRing K]

section
variable {rnd : K → Option K} {u η big M : K} {kw n p r : Nat} {v : Nat → K}

theorem abs_sumF_le {f : Nat → K} (hf : ∀ i, i < n → |f i| ≤ M) : |sumF n f| ≤ (n : K) * M := by
  induction n with
  | zero => simp [sumF]
  | succ n ih =>
    simp only [sumF]
    refine le_trans (abs_add_le _ _) ?_
    have h1 := ih (fun i hi => hf i (by omega))
    have h2 := hf n (by omega)
    push_cast
    linarith

theorem sumF_shift (f : Nat → K) (n : Nat) : sumF n (fun i => f (i + 1)) + f 0 = sumF n f + f n := by
  induction n with
  | zero => simp [sumF]
  | succ n ih => simp only [sumF]; linarith

variable [FloorRing K]

theorem slide_round (R : Rounds rnd u η big) (hkw : 0 < kw) (hv : ∀ i, i < n → |v i| ≤ M)
    (hb : grown u η (2 * n) (2 * n) ((kw : K) * M) ≤ big) (hp : p + kw ≤ n) :
    ∃ t, slideO (roundMean rnd) kw v p = some t ∧
      Within u η (kw + 2 * p) (kw + 2 * p) ((kw : K) * M) (sumF kw (fun i => v (p + i))) t := by
  have hM : 0 ≤ M := le_trans (abs_nonneg _) (hv 0 (by omega))
  have hA : 0 ≤ (kw : K) * M := mul_nonneg (Nat.cast_nonneg _) hM
  have hu := R.rel
  have hη := R.abs
  induction p with
  | zero =>
    obtain ⟨t, e, w⟩ := foldO_sums R (n := kw) (A := (kw : K) * M) (v := v)
      (fun k hk => le_trans (abs_sumF_le (fun i hi => hv i (by omega)))
        (mul_le_mul_of_nonneg_right (by exact_mod_cast hk) hM))
      (le_trans (grown_mono hu hη hA (le_refl _) (by omega) (by omega)) hb)
    refine ⟨t, e, ?_⟩
    simpa using w
  | succ p ih =>
    obtain ⟨t, e, w⟩ := ih (by omega)
    have hs := sumF_shift (fun i => v (p + i)) kw
    simp only [Nat.add_zero, ← Nat.add_assoc] at hs
    have hmid : sumF kw (fun i => v (p + i)) + -v p = sumF (kw - 1) (fun i => v (p + i + 1)) := by
      obtain ⟨q, rfl⟩ : ∃ q, kw = q + 1 := ⟨kw - 1, by omega⟩
      have := sumF_shift (fun i => v (p + i)) q
      simp only [Nat.add_zero, ← Nat.add_assoc] at this
      simp only [Nat.add_sub_cancel, sumF]; linarith
    have w1 := w.shift (-v p) (by
      rw [hmid]
      refine le_trans (abs_sumF_le (fun i hi => hv _ (by omega))) (mul_le_mul_of_nonneg_right ?_ hM)
      exact_mod_cast Nat.sub_le _ _)
    rw [← sub_eq_add_neg t] at w1
    obtain ⟨t1, e1, w2⟩ := w1.round R (le_trans (grown_mono hu hη hA (le_refl _) (by omega) (by omega)) hb)
    have hnew : sumF kw (fun i => v (p + i)) + -v p + v (p + kw) = sumF kw (fun i => v (p + 1 + i)) := by
      simp only [show ∀ i, p + 1 + i = p + i + 1 from fun i => by omega]
      linarith
    have w3 := w2.shift (v (p + kw)) (by
      rw [hnew]
      exact abs_sumF_le (fun i hi => hv _ (by omega)))
    obtain ⟨t2, e2, w4⟩ := w3.round R (le_trans (grown_mono hu hη hA (le_refl _) (by omega) (by omega)) hb)
    rw [hnew] at w4
    refine ⟨t2, ?_, w4.mono R (by omega) (by omega)⟩
    unfold slideO
    rw [e, Option.bind_some]
    show (rnd (t - v p)).bind _ = _
    rw [e1, Option.bind_some]
    exact e2

/-- What a running sum at `p` gives. -/
def slideOut (rnd : K → Option K) (kw : Nat) (v : Nat → K) (p : Nat) : Option K :=
  (slideO (roundMean rnd) kw v p).bind ((roundMean rnd).fin kw)

theorem slideOut_round (R : Rounds rnd u η big) (hkw : 0 < kw) (hv : ∀ i, i < n → |v i| ≤ M)
    (hb : grown u η (2 * n) (2 * n) ((kw : K) * M) ≤ big) (he : rnd (kw : K) = some (kw : K)) (hp : p + kw ≤ n) :
    ∃ z, slideOut rnd kw v p = some z ∧
      |z - sumF kw (fun i => v (p + i)) / (kw : K)| ≤ roundError u η (kw + 2 * p + 1) (kw + 2 * p + 1) M := by
  have hM : 0 ≤ M := le_trans (abs_nonneg _) (hv 0 (by omega))
  have hA : 0 ≤ (kw : K) * M := mul_nonneg (Nat.cast_nonneg _) hM
  have hk1 : (1 : K) ≤ (kw : K) := by exact_mod_cast hkw
  have hk0 : (kw : K) ≠ 0 := by linarith
  obtain ⟨t, e, w⟩ := slide_round R hkw hv hb hp
  have w1 := w.quot R hk1
  rw [mul_div_cancel_left₀ _ hk0] at w1
  obtain ⟨z, ez, w2⟩ := w1.round R (le_trans (grown_mono R.rel R.abs hM (le_mul_of_one_le_left hM hk1) (by omega) (by omega)) hb)
  refine ⟨z, ?_, w2.error⟩
  unfold slideOut
  rw [e, Option.bind_some]
  show (rnd _).bind _ = _
  rw [he, Option.bind_some, if_neg hk0, ez]

theorem slides_round (R : Rounds rnd u η big) (hkw : 0 < kw) (hv : ∀ i, i < n → |v i| ≤ M)
    (hb : grown u η (2 * n) (2 * n) ((kw : K) * M) ≤ big) (he : rnd (kw : K) = some (kw : K)) (hn : kw ≤ n)
    {out : Nat → K} (ho : ∀ p, p + kw ≤ n → slideOut rnd kw v p = some (out p)) :
    Slides (roundMean rnd) kw n v (fun p => (slideO (roundMean rnd) kw v p).getD 0) out := by
  have hsome : ∀ p, p + kw ≤ n → slideO (roundMean rnd) kw v p = some ((slideO (roundMean rnd) kw v p).getD 0) := by
    intro p hp
    obtain ⟨t, e, -⟩ := slide_round R hkw hv hb hp
    rw [e]; rfl
  refine ⟨hsome 0 (by omega), fun p hp => ?_, fun p hp => ?_⟩
  · have h1 := hsome (p + 1) (by omega)
    rw [← h1]
    show _ = (slideO (roundMean rnd) kw v p).bind _
    rw [hsome p (by omega)]; rfl
  · have h1 := ho p hp
    unfold slideOut at h1
    rw [hsome p hp] at h1
    exact h1

/-- What is computed for sample `x` of a line. -/
def meanLineR (rnd : K → Option K) (c : K) (slides : Bool) (r n : Nat) (v : Nat → K) (x : Nat) : Option K :=
  if slides = true ∧ r ≤ x ∧ x + r < n then slideOut rnd (2 * r + 1) v (x - r)
  else avgAt (roundArith rnd) (2 * r + 1) r (fun _ => c) n v x

theorem meanAvg_round (R : Rounds rnd u η big) {c : K} {x : Nat} (hc : 0 < c) (hx : x < n) (hv : ∀ i, i < n → |v i| ≤ M)
    (hfit : AvgFits u η big (localCount r n x) (c * (localCount r n x : K)) M) :
    (∃ z, avgAt (roundArith rnd) (2 * r + 1) r (fun _ => c) n v x = some z ∧
      |z - exactMean r n v x| ≤ avgBound u η (localCount r n x) (c * (localCount r n x : K)) M) ∧
    weightAt (roundArith rnd) (2 * r + 1) r (fun _ => c) n x ≠ none := by
  obtain ⟨e1, e2⟩ := winSum_constK (r := r) v c hx
  obtain ⟨e3, -⟩ := win_local (r := r) v hx
  have h := avg_round R (kw := 2 * r + 1) (o := r) (c := fun _ => c) (v := v) (M := M) (by omega) hx (fun _ _ => le_of_lt hc) hv
    (by rw [e3, e2]; exact hfit)
  rw [e3, e2] at h
  have hm : exactAvg (2 * r + 1) r (fun _ => c) n v x = exactMean r n v x := by
    unfold exactAvg exactMean
    rw [e1, e2, mul_div_mul_left _ _ (ne_of_gt hc)]
  rw [hm] at h
  exact h

theorem meanLine_round (R : Rounds rnd u η big) {c : K} {x : Nat} {slides : Bool} (hc : 0 < c) (hx : x < n)
    (hv : ∀ i, i < n → |v i| ≤ M) (he : rnd ((2 * r + 1 : Nat) : K) = some ((2 * r + 1 : Nat) : K))
    (hfit : MeanFits u η big c r n M) :
    ∃ z, meanLineR rnd c slides r n v x = some z ∧ |z - exactMean r n v x| ≤ meanBound u η c slides r n x M := by
  unfold meanLineR meanBound
  by_cases h : slides = true ∧ r ≤ x ∧ x + r < n
  · rw [if_pos h, if_pos h]
    obtain ⟨z, ez, hz⟩ := slideOut_round R (kw := 2 * r + 1) (p := x - r) (by omega) hv (hfit.slides (by omega)) he (by omega)
    refine ⟨z, ez, ?_⟩
    have hl : localCount r n x = 2 * r + 1 := by unfold localCount; omega
    unfold exactMean localSum
    rw [hl, show 2 * x + 2 = 2 * r + 1 + 2 * (x - r) + 1 by omega]
    exact hz
  · rw [if_neg h, if_neg h]
    exact (meanAvg_round R hc hx hv (hfit.avg x hx)).1

theorem oneLaw_round (rnd : K → Option K) : (roundArith rnd).OneLaw := by
  intro s h t
  have : s = 1 := of_decide_eq_true h
  subst this
  show (if _ then _ else _) = rnd t
  rw [if_neg one_ne_zero, div_one]

theorem kernelSumO_run {S : Type} (k : Kernel S) {z s : S} {add : S → S → Option S} {c : Nat → S} (hs : k.data.size = n)
    (hc : ∀ i, i < n → k.data.data[i]? = some (c i)) (hf : foldO n z (fun i t => add t (c i)) = some s) (h : Heap V) :
    k.sum z add h = .ok s h := by
  unfold Kernel.sum
  rw [hs]
  suffices ∀ m, m ≤ n → ∀ s, foldO m z (fun i t => add t (c i)) = some s → M.loopS m z (fun i total => do
    let v ← k.get i
    match (add total v : Option S) with
    | some t => pure t
    | none => M.ub) h = .ok s h from this n (Nat.le_refl n) s hf
  intro m hm
  induction m with
  | zero => intro s e; cases e; rfl
  | succ m ih =>
    intro s e
    cases e1 : foldO m z (fun i t => add t (c i)) with
    | none =>
      change (foldO m z _).bind _ = _ at e
      rw [e1] at e; cases e
    | some t =>
      change (foldO m z _).bind _ = _ at e
      rw [e1, Option.bind_some] at e
      refine (M.bind_ok (ih (by omega) t e1)).trans ?_
      refine (M.bind_ok (a := c m) (h' := h) ?_).trans ?_
      · unfold Kernel.get
        rw [hc m (by omega)]; rfl
      · have e2 : add t (c m) = some s := e
        rw [e2]; rfl

theorem foldO_ones {N : Nat} (hx : ExactTo rnd N) : ∀ n, n ≤ N → foldO n (0 : K) (fun _ t => rnd (t + 1)) = some (n : K) := by
  intro n
  induction n with
  | zero => intro _; simp [foldO]
  | succ n ih =>
    intro h
    show (foldO n _ _).bind _ = _
    rw [ih (by omega), Option.bind_some]
    have := hx (n + 1) h
    push_cast at this ⊢
    exact this

theorem mkMeanR (E : GrowArray.Elem K) (hz : E.ms E.zero = E.zero) {c : K} (hx : ExactTo rnd (2 * r + 1))
    (hc : rnd (1 / ((2 * r + 1 : Nat) : K)) = some c) (h : Heap V) :
    ∃ k, FactoryKernel.mean1DR rnd E (2 * r + 1) h = .ok k h ∧ k.Is1D (2 * r + 1) r (fun _ => c) := by
  obtain ⟨k, e, hk⟩ := (C43_table E hz (1 : K) (2 * r + 1) h).2 (by omega)
  have hk0 : ((2 * r + 1 : Nat) : K) ≠ 0 := by exact_mod_cast (by omega : 2 * r + 1 ≠ 0)
  have hl := hk.length
  unfold FactoryKernel.mean1DR
  rw [M.bind_ok e]
  unfold FactoryKernel.normalizeR
  rw [M.bind_ok (kernelSumO_run k (c := fun _ => (1 : K)) hk.size hk.coef (foldO_ones hx _ (le_refl _)) h), hk.width]
  obtain ⟨k2, e2, f⟩ := (Kernel.Filled.refl k (fun _ => c)).loop (n := 2 * r + 1) (h := h)
    (body := fun i k => do
      let v ← k.get i
      if ((2 * r + 1 : Nat) : K) = 0 then M.ub else do
        let q ← opt (rnd (v / ((2 * r + 1 : Nat) : K)))
        k.put i q) (R := fun i j => j = i) (by
    intro i k1 hi hf
    have : k1.get i h = .ok (1 : K) h := by
      unfold Kernel.get
      rw [hf.no, hk.coef i (by omega)]
      · rfl
      · rintro (q | ⟨i', a, b⟩)
        · exact q
        · omega
    rw [M.bind_ok this, if_neg hk0, hc]
    obtain ⟨k3, e3, f3⟩ := hf.put (i := i) (by omega) (s := c) rfl h
    exact ⟨k3, e3, f3⟩)
  refine ⟨k2, e2, by rw [f.width, hk.width], by rw [f.offset, hk.offset]; omega, by rw [f.size, hk.size], fun i hi => ?_⟩
  exact f.yes i (Or.inr ⟨i, hi, rfl⟩) (by omega)

theorem roundIndex {N b s k : Nat} (hx : ExactTo rnd N) (hN : N < P32) (hb : b + s * k ≤ N) (hk : 0 < k) (hs : k ≤ N):
    (roundMean rnd).index b s k = some (wrap32 (b + s * k)) := by
  have h1 : s ≤ s * k := Nat.le_mul_of_pos_right s hk
  show (rnd (b : K)).bind _ = _
  rw [hx b (by omega), Option.bind_some, hx s (by omega), Option.bind_some, hx k hs, Option.bind_some]
  have e1 : ((s : K) * (k : K)) = ((s * k : Nat) : K) := by push_cast; rfl
  rw [e1, hx (s * k) (by omega), Option.bind_some]
  have e2 : ((b : K) + ((s * k : Nat) : K)) = ((b + s * k : Nat) : K) := by push_cast; rfl
  rw [e2, hx _ hb, Option.bind_some, if_pos, wrap32_of_lt (by omega)]
  · rw [Int.floor_natCast, Int.toNat_natCast]
  · refine ⟨?_, ?_⟩
    · have : (0 : K) ≤ ((b + s * k : Nat) : K) := Nat.cast_nonneg _
      linarith
    · exact_mod_cast (by omega : b + s * k < P32)

variable {g a : Gray} {h1 : Heap K} {F f : Nat → Nat → K}

theorem meanR_horizontal (R : Rounds rnd u η big) (E : GrowArray.Elem K) (hz : E.ms E.zero = E.zero) {c : K}
    (hx : ExactTo rnd (2 * r + 1)) (hc : rnd (1 / ((2 * r + 1 : Nat) : K)) = some c) (hc0 : 0 < c)
    (hv : g.Valid h1) (ew : g.width = a.width) (eh : g.height = a.height) (ha : Pixels h1 g F a f)
    (hb : a.width + (2 * r + 1) ≤ 2147483648) (hlen : a.dataLength < 2147483648)
    (hM : 0 ≤ M) (hpix : ∀ x y, x < a.width → y < a.height → |f x y| ≤ M) (hfit : MeanFits u η big c r a.width M)
    (hF : ∀ x y, x < a.width → y < a.height → meanLineR rnd c true r a.width (fun i => f i y) x = some (F x y)) :
    Paints h1 g F (ConvolveImageMean.horizontalR rnd E a g r) (fun _ _ => True) := by
  have hbord : ∀ x y, x < a.width → y < a.height → (x < r ∨ a.width + r < x + (2 * r + 1)) →
      avgAt (roundArith rnd) (2 * r + 1) r (fun _ => c) a.width (fun i => f i y) x = some (F x y) := fun x y hx hy hb => by
    rw [← hF x y hx hy]; unfold meanLineR; rw [if_neg (by omega)]
  refine mean_horizontal hv ew eh ha hb (mkMeanR E hz hx hc) (fun hk k hk' => ?_) (fun _ => hbord)
    (fun hkw y hy => ⟨_, slides_round R (by omega) (fun i hi => hpix i y hi hy) (hfit.slides hkw) (hx _ (le_refl _)) hkw
      (fun p hp => ?_)⟩)
  · refine normalized_horizontalF (oneLaw_round rnd) hv ew eh hk' (by omega) hb ha hlen (fun x hx => ?_)
      (fun x y hx hy => hbord x y hx hy (by omega))
    exact (meanAvg_round R hc0 (v := fun _ => 0) hx (fun i _ => by rw [abs_zero]; exact hM) (hfit.avg x hx)).2
  · rw [← hF (p + r) y (by omega) hy]; unfold meanLineR; rw [if_pos (by refine ⟨rfl, ?_⟩; omega), Nat.add_sub_cancel]

theorem meanR_vertical (R : Rounds rnd u η big) (E : GrowArray.Elem K) (hz : E.ms E.zero = E.zero) {c : K}
    (hx : ExactTo rnd (2 * r + 1)) (hc : rnd (1 / ((2 * r + 1 : Nat) : K)) = some c) (hc0 : 0 < c)
    (hv : g.Valid h1) (ew : g.width = a.width) (eh : g.height = a.height) (ha : Pixels h1 g F a f)
    (hb : a.height + (2 * r + 1) ≤ 2147483648) (hr : 0 < r) (hlen : a.dataLength < 2147483648)
    (hshape : 2 * r + 1 ≤ a.height ∨ a.width < 2 * r + 1)
    {N : Nat} (hxi : ExactTo rnd N) (hN : N < P32) (hidx : 2 * r + 1 ≤ a.width → a.dataLength + a.stride ≤ N)
    (hM : 0 ≤ M) (hpix : ∀ x y, x < a.width → y < a.height → |f x y| ≤ M) (hfit : MeanFits u η big c r a.height M)
    (hF : ∀ x y, x < a.width → y < a.height →
      meanLineR rnd c (decide (2 * r + 1 ≤ a.width)) r a.height (fun i => f x i) y = some (F x y)) :
    Paints h1 g F (ConvolveImageMean.verticalR rnd E a g r) (fun _ _ => True) := by
  have hw : ∀ y, y < a.height → weightAt (roundArith rnd) (2 * r + 1) r (fun _ => c) a.height y ≠ none := fun y hy =>
    (meanAvg_round R hc0 (v := fun _ => 0) hy (fun i _ => by rw [abs_zero]; exact hM) (hfit.avg y hy)).2
  refine mean_vertical hv ew eh ha hb hr hlen hshape (mkMeanR E hz hx hc) (fun hnar k hk => ?_) hw (fun hkw x y hx hy hb => ?_)
    (fun hkw hkh b hb => ?_) (tot := fun x p => (slideO (roundMean rnd) (2 * r + 1) (fun i => f x i) p).getD 0)
    (fun hkw hkh x hx' => slides_round R (by omega) (fun i hi => hpix x i hx' hi) (hfit.slides hkh) (hx _ (le_refl _)) hkh
      (fun p hp => ?_))
  · refine normalized_verticalF (oneLaw_round rnd) hv ew eh hk (by omega) hb ha hlen (fun _ _ _ => rfl) hw (fun x y hx hy => ?_)
    rw [← hF x y hx hy]; unfold meanLineR
    rw [if_neg (fun h => by have := of_decide_eq_true h.1; omega)]
  · rw [← hF x y hx hy]; unfold meanLineR; rw [if_neg (by omega)]
  · have hi := hidx hkw
    have hs : 2 * r + 1 ≤ a.stride * (2 * r + 1) :=
      Nat.le_mul_of_pos_left _ (by have := ha.valid.rowLe; omega)
    have hfit := ha.valid.fits (2 * r) (by omega)
    have hmul : a.stride * (2 * r + 1) = 2 * r * a.stride + a.stride := by rw [Nat.mul_comm]; exact Nat.succ_mul _ _
    exact roundIndex hxi hN (by omega) (by omega) (by omega)
  · rw [← hF x (p + r) hx' (by omega)]; unfold meanLineR
    rw [if_pos (by refine ⟨decide_eq_true hkw, ?_⟩; omega), Nat.add_sub_cancel]

end
end Boof
