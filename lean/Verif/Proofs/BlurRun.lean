import Verif.Proofs.BlurMean
import Verif.Proofs.TwoStage
namespace Boof
open M
variable {V S T α β : Type} {h1 : Heap V} {g : Gray} {F : Nat → Nat → V}

/-- A step which makes an object and leaves memory alone. -/
theorem Paints.make {m : M V α} {f : α → M V Unit} {R : Nat → Nat → Prop} {Q : α → Prop}
    (hm : ∀ h, ∃ k, m h = .ok k h ∧ Q k) (hf : ∀ k, Q k → Paints h1 g F (f k) R) : Paints h1 g F (m >>= f) R :=
  fun P h2 hp => by
    obtain ⟨k, e, q⟩ := hm h2
    exact Spec.bind_eq e (hf k q P h2 hp)

theorem Paints.sameShape {a : Gray} {f : Unit → M V Unit} {R : Nat → Nat → Prop} (ew : g.width = a.width) (eh : g.height = a.height)
    (hf : Paints h1 g F (f ()) R) : Paints h1 g F (checkSameShape2 a.width a.height g.width g.height >>= f) R := by
  refine Paints.bind (a := ()) (Computes.of_const (fun h => ?_)) hf
  unfold checkSameShape2
  rw [if_neg (by omega)]; rfl

variable {A : Arith V S} {B : MeanArith V T} {a : Gray} {r : Nat} {f : Nat → Nat → V} {c : Nat → S}
  {mk : Nat → M V (Kernel S)} {conv : Kernel S → Gray → Gray → M V Unit}

theorem mean_horizontal (hv : g.Valid h1) (ew : g.width = a.width) (eh : g.height = a.height)
    (ha : Pixels h1 g F a f) (hb : a.width + (2 * r + 1) ≤ 2147483648)
    (hmk : ∀ h, ∃ k, mk (2 * r + 1) h = .ok k h ∧ k.Is1D (2 * r + 1) r c)
    (hconv : a.width < 2 * r + 1 → ∀ k, k.Is1D (2 * r + 1) r c → Paints h1 g F (conv k a g) (fun _ _ => True))
    (hF : 2 * r + 1 ≤ a.width → ∀ x y, x < a.width → y < a.height → x < r ∨ a.width + r < x + (2 * r + 1) →
      avgAt A (2 * r + 1) r c a.width (fun i => f i y) x = some (F x y))
    (hs : 2 * r + 1 ≤ a.width → ∀ y, y < a.height → ∃ tot, Slides B (2 * r + 1) a.width (fun i => f i y) tot (fun p => F (p + r) y)) :
    Paints h1 g F (ConvolveImageMean.horizontal A B mk conv a g r) (fun _ _ => True) := by
  unfold ConvolveImageMean.horizontal
  have ek : wrap32 (r * 2 + 1) = 2 * r + 1 := by
    rw [wrap32_of_lt (by show _ < (4294967296:Nat); omega)]; omega
  rw [ek]
  refine Paints.sameShape ew eh (Paints.make hmk (fun k hk => ?_))
  by_cases hc : k.width > a.width
  · rw [if_pos hc]; exact hconv (by rw [hk.width] at hc; omega) k hk
  · rw [if_neg hc]
    rw [hk.width] at hc
    refine (Paints.seq (just_horizontal hv ew eh hk (by omega) (by omega) ha (hF (by omega)))
      (mean_innerHorizontal hv ew eh ha (by omega) (hs (by omega)))).congr (fun x y _ _ => ⟨fun _ => trivial, fun _ => by omega⟩)

theorem mean_vertical (hv : g.Valid h1) (ew : g.width = a.width) (eh : g.height = a.height)
    (ha : Pixels h1 g F a f) (hb : a.height + (2 * r + 1) ≤ 2147483648) (hr : 0 < r) (hlen : a.dataLength < 2147483648)
    (hshape : 2 * r + 1 ≤ a.height ∨ a.width < 2 * r + 1)
    (hmk : ∀ h, ∃ k, mk (2 * r + 1) h = .ok k h ∧ k.Is1D (2 * r + 1) r c)
    (hconv : a.width < 2 * r + 1 → ∀ k, k.Is1D (2 * r + 1) r c → Paints h1 g F (conv k a g) (fun _ _ => True))
    (hd : ∀ y, y < a.height → weightAt A (2 * r + 1) r c a.height y ≠ none)
    (hF : 2 * r + 1 ≤ a.width → ∀ x y, x < a.width → y < a.height → y < r ∨ a.height + r < y + (2 * r + 1) →
      avgAt A (2 * r + 1) r c a.height (fun i => f x i) y = some (F x y))
    (hidx : 2 * r + 1 ≤ a.width → 2 * r + 1 ≤ a.height → ∀ b, b = 0 ∨ (a.offset ≤ b ∧ b < a.offset + a.width) → B.index b a.stride (2 * r + 1) = some (wrap32 (b + a.stride * (2 * r + 1))))
    {tot : Nat → Nat → T}
    (hs : 2 * r + 1 ≤ a.width → 2 * r + 1 ≤ a.height → ∀ x, x < a.width → Slides B (2 * r + 1) a.height (fun i => f x i) (tot x) (fun p => F x (p + r))) :
    Paints h1 g F (ConvolveImageMean.vertical A B mk conv a g r) (fun _ _ => True) := by
  unfold ConvolveImageMean.vertical
  have ek : wrap32 (r * 2 + 1) = 2 * r + 1 := by
    rw [wrap32_of_lt (by show _ < (4294967296:Nat); omega)]; omega
  rw [ek]
  refine Paints.sameShape ew eh (Paints.make hmk (fun k hk => ?_))
  by_cases hc : k.width > a.width
  · rw [if_pos hc]; exact hconv (by rw [hk.width] at hc; omega) k hk
  · rw [if_neg hc]
    rw [hk.width] at hc
    refine (Paints.seq (just_vertical hv ew eh hk (by omega) (by omega) ha hd (hF (by omega)))
      (mean_innerVertical hv ew eh ha hr (by omega) hlen (hidx (by omega) (by omega)) (hs (by omega) (by omega)))).congr (fun x y _ _ => ⟨fun _ => trivial, fun _ => by omega⟩)

theorem sumF_pos_of {K : Type} [Ring K] [LinearOrder K] [IsStrictOrderedRing K] {n i0 : Nat} {c : Nat → K} (hi : i0 < n)
    (hc : ∀ i, i < n → 0 ≤ c i) (h0 : 0 < c i0) : 0 < sumF n c := by
  induction n with
  | zero => omega
  | succ n ih =>
    simp only [sumF]
    have hn : 0 ≤ sumF n c := by
      have : ∀ m, m ≤ n → 0 ≤ sumF m c := by
        intro m
        induction m with
        | zero => intro _; exact le_refl _
        | succ m ihm => intro hm; exact add_nonneg (ihm (by omega)) (hc m (by omega))
      exact this n (Nat.le_refl n)
    rcases Nat.lt_or_ge i0 n with h | h
    · exact add_pos_of_pos_of_nonneg (ih h (fun i hi => hc i (by omega))) (hc n (by omega))
    · have : i0 = n := by omega
      subst this
      exact add_pos_of_nonneg_of_pos hn h0

/-- The middle of the kernel always lies on the line. -/
theorem winWeight_pos {K : Type} [Ring K] [LinearOrder K] [IsStrictOrderedRing K] {kw o n x : Nat} {c : Nat → K} (hx : x < n)
    (ho : o < kw) (hc : ∀ i, i < kw → 0 ≤ c i) (h0 : 0 < c o) : 0 < winWeight kw o c n x := by
  have hl : lastIn kw o n x ≤ kw ∧ o < lastIn kw o n x ∧ firstIn o x ≤ o := by unfold lastIn firstIn; omega
  unfold winWeight
  refine sumF_pos_of (i0 := o - firstIn o x) (by omega) (fun i hi => hc _ (by omega)) ?_
  rwa [show firstIn o x + (o - firstIn o x) = o by omega]

/-! ### Integral pixels -/

theorem mkMeanInt (t : IntTy) (junk : Nat → Int) (r : Nat) (h : Heap V) :
    ∃ k, FactoryKernel.mean1DInt (intElem t junk) (2 * r + 1) h = .ok k h ∧ k.Is1D (2 * r + 1) r (fun _ => 1) := by
  obtain ⟨k, e, hk⟩ := C43_meanInt (V := V) t junk (w := 2 * r + 1) (by omega) h
  rw [show (2 * r + 1) / 2 = r by omega] at hk
  exact ⟨k, e, hk⟩

theorem roundedMean_eq {t : IntTy} {r n x : Nat} {v : Nat → Int} (hx : x < n) :
    roundedAvg t (2 * r + 1) r (fun _ => 1) n v x = roundedMean t r n v x := by
  unfold roundedAvg roundedMean
  obtain ⟨e1, e2⟩ := winSum_ones (r := r) v hx
  rw [e1, e2]

theorem sumF_ones (n : Nat) : sumF n (fun _ => (1 : Int)) = n := by
  induction n with
  | zero => rfl
  | succ n ih => simp only [sumF]; rw [ih]; push_cast; rfl

theorem localCount_pos {r n x : Nat} (hx : x < n) : 0 < localCount r n x := by unfold localCount; omega

theorem avg_ones {t : IntTy} {r n x : Nat} {v : Nat → Int} {P : Int} (hx : x < n) (hv : ∀ i, i < n → |v i| ≤ P)
    (hb : (2 * r + 1 : Nat) * (P + 1) ≤ t.signedType.hi) :
    avgAt (intArith t t) (2 * r + 1) r (fun _ => 1) n v x = some (roundedMean t r n v x) ∧
    weightAt (intArith t t) (2 * r + 1) r (fun _ => (1 : Int)) n x ≠ none := by
  obtain ⟨e1, e2⟩ := winSum_ones (r := r) v hx
  have hp : 0 < winWeight (2 * r + 1) r (fun _ => (1 : Int)) n x := by
    have := localCount_pos (r := r) hx
    rw [e2]; omega
  obtain ⟨q1, q2⟩ := avg_nonneg (t := t) (r := t) (kw := 2 * r + 1) (o := r) (c := fun _ => 1) hx (by omega) (fun _ _ => by omega) hp hv
    (by rw [sumF_ones]; exact hb)
  refine ⟨?_, by rw [q2]; exact Option.some_ne_none _⟩
  rw [q1, e1, e2]; rfl

theorem weight_ones {t : IntTy} {r n x : Nat} (hx : x < n) (hb : ((2 * r + 1 : Nat) : Int) ≤ t.signedType.hi) :
    weightAt (intArith t t) (2 * r + 1) r (fun _ => (1 : Int)) n x ≠ none :=
  (avg_ones (v := fun _ => 0) (P := 0) hx (fun i _ => by rw [abs_zero]) (by omega)).2

theorem pix_types {t : IntTy} (ht : t ∈ [U8, U16, S16, S32, S64]) : 0 < t.bits ∧ t.cast 1 = 1 ∧ t.hi ≤ t.signedType.hi ∧
    (t.signed = true → t.lo = -t.hi - 1) ∧ (t.signed = false → t.lo = 0) ∧ 255 ≤ t.hi := by
  revert t
  decide

theorem meanInt_horizontal {h1 : Heap Int} {F f : Nat → Nat → Int} {t : IntTy} (ht : t ∈ [U8, U16, S16, S32, S64]) (junk : Nat → Int)
    (hv : g.Valid h1) (ew : g.width = a.width) (eh : g.height = a.height) (ha : Pixels h1 g F a f)
    (hb : a.width + (2 * r + 1) ≤ 2147483648) {P : Int}
    (hpix : ∀ x y, x < a.width → y < a.height → t.InRange (f x y) ∧ |f x y| ≤ P)
    (hov : (2 * r + 1 : Nat) * (P + 1) ≤ t.signedType.hi) (hP : 0 ≤ P)
    (hF : ∀ x y, F x y = roundedMean t r a.width (fun i => f i y) x) :
    Paints h1 g F (ConvolveImageMean.horizontalInt t (intElem t junk) a g r) (fun _ _ => True) := by
  have havg : ∀ x y, x < a.width → y < a.height →
      avgAt (intArith t t) (2 * r + 1) r (fun _ => 1) a.width (fun i => f i y) x = some (F x y) := fun x y hx hy => by
    rw [hF]; exact (avg_ones hx (fun i hi => (hpix i y hi hy).2) hov).1
  have hk0 : ((2 * r + 1 : Nat) : Int) ≤ t.signedType.hi := by nlinarith
  refine mean_horizontal hv ew eh ha hb (mkMeanInt t junk r) (fun _ k hk => ?_) (fun _ x y hx hy _ => havg x y hx hy) (fun hkw y hy => ⟨fun p => sumF (2 * r + 1) (fun i => f (p + i) y), ?_⟩)
  · exact normalized_horizontal hv ew eh hk (by omega) hb ha (fun x hx => weight_ones hx hk0) havg
  · have := slides_int ht (r := r) (n := a.width) (v := fun i => f i y) (P := P) hkw
      (fun hs i hi => by
        have := (hpix i y hi hy).1.1
        rw [(pix_types ht).2.2.2.2.1 hs] at this; exact this) (fun i hi => (hpix i y hi hy).2) hov
    simp only [hF]
    exact this

theorem meanInt_vertical {h1 : Heap Int} {F f : Nat → Nat → Int} {t : IntTy} (ht : t ∈ [U8, U16, S16, S32, S64]) (junk : Nat → Int)
    (hv : g.Valid h1) (ew : g.width = a.width) (eh : g.height = a.height) (ha : Pixels h1 g F a f)
    (hb : a.height + (2 * r + 1) ≤ 2147483648) (hr : 0 < r) (hlen : a.dataLength < 2147483648)
    (hshape : 2 * r + 1 ≤ a.height ∨ a.width < 2 * r + 1) {P : Int}
    (hpix : ∀ x y, x < a.width → y < a.height → t.InRange (f x y) ∧ |f x y| ≤ P)
    (hov : (2 * r + 1 : Nat) * (P + 1) ≤ t.signedType.hi) (hP : 0 ≤ P)
    (hF : ∀ x y, F x y = roundedMean t r a.height (fun i => f x i) y) :
    Paints h1 g F (ConvolveImageMean.verticalInt t (intElem t junk) a g r) (fun _ _ => True) := by
  have havg : ∀ x y, x < a.width → y < a.height →
      avgAt (intArith t t) (2 * r + 1) r (fun _ => 1) a.height (fun i => f x i) y = some (F x y) := fun x y hx hy => by
    rw [hF]; exact (avg_ones hy (fun i hi => (hpix x i hx hi).2) hov).1
  have hk0 : ((2 * r + 1 : Nat) : Int) ≤ t.signedType.hi := by nlinarith
  refine mean_vertical hv ew eh ha hb hr hlen hshape (mkMeanInt t junk r) (fun _ k hk => ?_) (fun y hy => weight_ones hy hk0)
    (fun _ x y hx hy _ => havg x y hx hy) (fun _ _ _ _ => rfl) (fun _ hkw x hx => ?_) (tot := fun x p => sumF (2 * r + 1) (fun i => f x (p + i)))
  · exact normalized_vertical hv ew eh hk (by omega) hb ha (fun _ _ _ => (pix_types ht).2.1) (fun y hy => weight_ones hy hk0) havg
  · have := slides_int ht (r := r) (n := a.height) (v := fun i => f x i) (P := P) hkw
      (fun hs i hi => by
        have := (hpix x i hx hi).1.1
        rw [(pix_types ht).2.2.2.2.1 hs] at this; exact this) (fun i hi => (hpix x i hx hi).2) hov
    simp only [hF]
    exact this

/-- Averages of pixels are pixels again. -/
theorem avg_pixel {t : IntTy} (ht : t ∈ [U8, U16, S16, S32, S64]) {kw o n x : Nat} {c v : Nat → Int} {P : Int} (hx : x < n)
    (ho : o < kw) (hc : ∀ i, i < kw → 0 ≤ c i) (hW : 0 < winWeight kw o c n x)
    (hv : ∀ i, i < n → t.InRange (v i) ∧ |v i| ≤ P) (hb : sumF kw c * (P + 1) ≤ t.signedType.hi) (hPh : P ≤ t.hi) :
    avgAt (intArith t t) kw o c n v x = some (roundedAvg t kw o c n v x) ∧ weightAt (intArith t t) kw o c n x ≠ none ∧
    t.InRange (roundedAvg t kw o c n v x) ∧ |roundedAvg t kw o c n v x| ≤ P := by
  obtain ⟨e1, e2⟩ := avg_nonneg (t := t) (r := t) hx ho hc hW (fun i hi => (hv i hi).2) hb
  obtain ⟨q, e3, -, e4⟩ := avg_between (t := t) (r := t) hx ho hc hW (fun i hi => (hv i hi).2) hb
  have e5 : roundedAvg t kw o c n v x = t.cast q := by
    rw [e1] at e3; exact Option.some.inj e3
  obtain ⟨t1, -, -, t2, t3, -⟩ := pix_types ht
  have hP : 0 ≤ P := le_trans (abs_nonneg _) (hv x hx).2
  have hq := e4 (-P) P (fun i hi => abs_le.mp (hv i hi.1).2)
  have hin : t.InRange q ∧ |q| ≤ P := by
    refine ⟨?_, abs_le.mpr ⟨hq.1, by omega⟩⟩
    cases hs : t.signed with
    | true =>
      have := t2 hs
      exact ⟨by omega, by omega⟩
    | false =>
      have h0 := t3 hs
      have := e4 0 P (fun i hi => ⟨by have := (hv i hi.1).1.1; omega, (abs_le.mp (hv i hi.1).2).2⟩)
      exact ⟨by omega, by omega⟩
  rw [e5, IntTy.cast_of_inRange t1 hin.1]
  refine ⟨?_, by rw [e2]; exact Option.some_ne_none _, hin⟩
  rw [e3, IntTy.cast_of_inRange t1 hin.1]

theorem mean_pixel {t : IntTy} (ht : t ∈ [U8, U16, S16, S32, S64]) {r n x : Nat} {v : Nat → Int} {P : Int} (hx : x < n)
    (hv : ∀ i, i < n → t.InRange (v i) ∧ |v i| ≤ P) (hb : (2 * r + 1 : Nat) * (P + 1) ≤ t.signedType.hi) (hPh : P ≤ t.hi) :
    t.InRange (roundedMean t r n v x) ∧ |roundedMean t r n v x| ≤ P := by
  rw [← roundedMean_eq hx]
  obtain ⟨-, e2⟩ := winSum_ones (r := r) v hx
  refine (avg_pixel ht (kw := 2 * r + 1) (o := r) (c := fun _ => 1) hx (by omega) (fun _ _ => by omega) ?_ hv
    (by rw [sumF_ones]; exact hb) hPh).2.2
  have := localCount_pos (r := r) hx
  rw [e2]; omega

/-! ### Floating point pixels -/
section
variable {K : Type} [Field K] [LinearOrder K] [IsStrictOrderedRing K] [FloorRing K]

theorem winSum_constK {r n x : Nat} (v : Nat → K) (d : K) (hx : x < n) :
    winSum (2 * r + 1) r (fun _ => d) n v x = d * localSum r n v x ∧
    winWeight (2 * r + 1) r (fun _ => d) n x = d * (localCount r n x : K) := by
  obtain ⟨e1, e2⟩ := win_local (r := r) v hx
  unfold winSum winWeight localSum
  rw [e1]
  constructor
  · simp only [e2]
    generalize localCount r n x = m
    induction m with
    | zero => simp [sumF]
    | succ m ih => simp only [sumF]; rw [ih]; ring
  · rw [sumF_const]; ring

theorem avg_constK {r n x : Nat} (v : Nat → K) (hx : x < n) :
    avgAt (fieldArith K) (2 * r + 1) r (fun _ => 1 / ((2 * r + 1 : Nat) : K)) n v x = some (exactMean r n v x) := by
  have hk : ((2 * r + 1 : Nat) : K) ≠ 0 := by exact_mod_cast (by omega : 2 * r + 1 ≠ 0)
  have hc : (localCount r n x : K) ≠ 0 := by
    have := localCount_pos (r := r) hx
    exact_mod_cast (by omega : localCount r n x ≠ 0)
  obtain ⟨e1, e2⟩ := winSum_constK (r := r) v (1 / ((2 * r + 1 : Nat) : K)) hx
  rw [avg_exact (by rw [e2]; exact mul_ne_zero (one_div_ne_zero hk) hc), e1, e2]
  unfold exactMean
  rw [mul_div_mul_left _ _ (one_div_ne_zero hk)]

theorem mkMeanK (E : GrowArray.Elem K) (hz : E.ms E.zero = E.zero) (r : Nat) (h : Heap V) :
    ∃ k, FactoryKernel.mean1D E (2 * r + 1) h = .ok k h ∧ k.Is1D (2 * r + 1) r (fun _ => 1 / ((2 * r + 1 : Nat) : K)) := by
  obtain ⟨k, e, hk, -⟩ := C43_mean (V := V) E hz (w := 2 * r + 1) (by omega) h
  rw [show (2 * r + 1) / 2 = r by omega] at hk
  exact ⟨k, e, hk⟩

theorem meanK_horizontal {h1 : Heap K} {F f : Nat → Nat → K} (E : GrowArray.Elem K) (hz : E.ms E.zero = E.zero)
    (hv : g.Valid h1) (ew : g.width = a.width) (eh : g.height = a.height) (ha : Pixels h1 g F a f)
    (hb : a.width + (2 * r + 1) ≤ 2147483648) (hlen : a.dataLength < 2147483648)
    (hF : ∀ x y, F x y = exactMean r a.width (fun i => f i y) x) :
    Paints h1 g F (ConvolveImageMean.horizontalFloat E a g r) (fun _ _ => True) := by
  have havg : ∀ x y, x < a.width → y < a.height →
      avgAt (fieldArith K) (2 * r + 1) r (fun _ => 1 / ((2 * r + 1 : Nat) : K)) a.width (fun i => f i y) x = some (F x y) :=
    fun x y hx hy => by rw [hF]; exact avg_constK _ hx
  refine mean_horizontal hv ew eh ha hb (mkMeanK E hz r) (fun _ k hk => ?_) (fun _ x y hx hy _ => havg x y hx hy) (fun hkw y hy => ⟨fun p => sumF (2 * r + 1) (fun i => f (p + i) y), ?_⟩)
  · exact normalized_horizontalF (oneLaw_exact K) hv ew eh hk (by omega) hb ha hlen (fun x hx => weight_exact) havg
  · simp only [hF]
    exact slides_exact

theorem meanK_vertical {h1 : Heap K} {F f : Nat → Nat → K} (E : GrowArray.Elem K) (hz : E.ms E.zero = E.zero)
    (hv : g.Valid h1) (ew : g.width = a.width) (eh : g.height = a.height) (ha : Pixels h1 g F a f)
    (hb : a.height + (2 * r + 1) ≤ 2147483648) (hr : 0 < r) (hlen : a.dataLength < 2147483648)
    (hshape : 2 * r + 1 ≤ a.height ∨ a.width < 2 * r + 1)
    (hF : ∀ x y, F x y = exactMean r a.height (fun i => f x i) y) :
    Paints h1 g F (ConvolveImageMean.verticalFloat E a g r) (fun _ _ => True) := by
  have havg : ∀ x y, x < a.width → y < a.height →
      avgAt (fieldArith K) (2 * r + 1) r (fun _ => 1 / ((2 * r + 1 : Nat) : K)) a.height (fun i => f x i) y = some (F x y) :=
    fun x y hx hy => by rw [hF]; exact avg_constK _ hy
  refine mean_vertical hv ew eh ha hb hr hlen hshape (mkMeanK E hz r) (fun _ k hk => ?_) (fun y hy => weight_exact)
    (fun _ x y hx hy _ => havg x y hx hy) (fun _ _ _ _ => rfl) (fun _ hkw x hx => ?_) (tot := fun x p => sumF (2 * r + 1) (fun i => f x (p + i)))
  · exact normalized_verticalF (oneLaw_exact K) hv ew eh hk (by omega) hb ha hlen (fun _ _ _ => rfl) (fun y hy => weight_exact) havg
  · simp only [hF]
    exact slides_exact

end
end Boof
