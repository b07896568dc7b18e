import Verif.Props.Blur
import Verif.Spec.Range
namespace Boof

theorem roundedAvg_between {t : IntTy} (ht : t ∈ [U8, U16, S16, S32, S64]) {kw o n x : Nat} {c v : Nat → Int} {P : Int} (hx : x < n)
    (ho : o < kw) (hc : ∀ i, i < kw → 0 ≤ c i) (hW : 0 < winWeight kw o c n x)
    (hv : ∀ i, i < n → t.InRange (v i) ∧ |v i| ≤ P) (hb : sumF kw c * (P + 1) ≤ t.signedType.hi) (hPh : P ≤ t.hi)
    {lo hi : Int} (hu : ∀ i, Under kw o n x i → lo ≤ v i ∧ v i ≤ hi) :
    lo ≤ roundedAvg t kw o c n v x ∧ roundedAvg t kw o c n v x ≤ max hi (min (hi + 1) 0) := by
  obtain ⟨q, e3, -, e4⟩ := avg_between (t := t) (r := t) hx ho hc hW (fun i hi => (hv i hi).2) hb
  have e1 := (avg_pixel ht hx ho hc hW hv hb hPh).1
  obtain ⟨t1, -, -, -, -, t4⟩ := pix_types ht
  have hr := e4 t.lo t.hi (fun i hi => (hv i hi.1).1)
  have e5 : roundedAvg t kw o c n v x = q := by
    rw [e1, IntTy.cast_of_inRange t1 ⟨hr.1, by omega⟩] at e3
    exact Option.some.inj e3
  have := e4 lo hi hu
  rw [e5]; omega

theorem avg_weight {t : IntTy} (ht : t ∈ [U8, U16, S16, S32, S64]) {kw o n x : Nat} {c : Nat → Int} {P : Int} (hx : x < n)
    (ho : o < kw) (hc : ∀ i, i < kw → 0 ≤ c i) (hW : 0 < winWeight kw o c n x)
    (hb : sumF kw c * (P + 1) ≤ t.signedType.hi) (hP : 0 ≤ P) (hPh : P ≤ t.hi) :
    weightAt (intArith t t) kw o c n x ≠ none := by
  refine (avg_pixel ht (v := fun _ => 0) hx ho hc hW (fun i _ => ⟨?_, by rw [abs_zero]; exact hP⟩) hb hPh).2.1
  obtain ⟨-, -, -, t2, t3, t4⟩ := pix_types ht
  cases hsg : t.signed with
  | true => have := t2 hsg; exact ⟨by omega, by omega⟩
  | false => have := t3 hsg; exact ⟨by omega, by omega⟩

theorem roundedMean_between {t : IntTy} (ht : t ∈ [U8, U16, S16, S32, S64]) {r n x : Nat} {v : Nat → Int} {P : Int} (hx : x < n)
    (hv : ∀ i, i < n → t.InRange (v i) ∧ |v i| ≤ P) (hb : (2 * r + 1 : Nat) * (P + 1) ≤ t.signedType.hi) (hPh : P ≤ t.hi)
    {lo hi : Int} (hu : ∀ i, Near r n x i → lo ≤ v i ∧ v i ≤ hi) :
    lo ≤ roundedMean t r n v x ∧ roundedMean t r n v x ≤ max hi (min (hi + 1) 0) := by
  rw [← roundedMean_eq hx]
  obtain ⟨-, e2⟩ := winSum_ones (r := r) v hx
  refine roundedAvg_between ht (kw := 2 * r + 1) (o := r) (c := fun _ => 1) hx (by omega) (fun _ _ => by omega) ?_ hv
    (by rw [sumF_ones]; exact hb) hPh (fun i h => hu i ⟨h.1, h.2.1, by have := h.2.2; omega⟩)
  have := localCount_pos (r := r) hx
  rw [e2]; omega

section
variable {K : Type} [Field K] [LinearOrder K] [IsStrictOrderedRing K]

theorem sumF_betweenK {n : Nat} {c v : Nat → K} {lo hi : K} (hc : ∀ i, i < n → 0 ≤ c i)
    (hv : ∀ i, i < n → lo ≤ v i ∧ v i ≤ hi) :
    sumF n c * lo ≤ sumF n (fun i => c i * v i) ∧ sumF n (fun i => c i * v i) ≤ sumF n c * hi := by
  induction n with
  | zero => simp [sumF]
  | succ n ih =>
    obtain ⟨a, b⟩ := ih (fun i h => hc i (by omega)) (fun i h => hv i (by omega))
    obtain ⟨p, q⟩ := hv n (by omega)
    have h0 := hc n (by omega)
    have e1 := mul_le_mul_of_nonneg_left p h0
    have e2 := mul_le_mul_of_nonneg_left q h0
    simp only [sumF, add_mul]
    exact ⟨add_le_add a e1, add_le_add b e2⟩

theorem exactAvg_between {kw o n x : Nat} {c v : Nat → K} (hx : x < n)
    (ho : o < kw) (hc : ∀ i, i < kw → 0 ≤ c i) (hW : 0 < winWeight kw o c n x)
    {lo hi : K} (hu : ∀ i, Under kw o n x i → lo ≤ v i ∧ v i ≤ hi) :
    lo ≤ exactAvg kw o c n v x ∧ exactAvg kw o c n v x ≤ hi := by
  have hl : lastIn kw o n x ≤ kw ∧ firstIn o x = o - x ∧ lastIn kw o n x ≤ n + o - x ∧ firstIn o x < lastIn kw o n x := by
    unfold lastIn firstIn; omega
  have hb2 := sumF_betweenK (n := lastIn kw o n x - firstIn o x) (c := fun i => c (firstIn o x + i))
    (v := fun i => v (x + (firstIn o x + i) - o)) (lo := lo) (hi := hi) (fun i hi => hc _ (by omega))
    (fun i hi => hu _ ⟨by omega, by omega, by omega⟩)
  unfold exactAvg
  rw [le_div_iff₀ hW, div_le_iff₀ hW, mul_comm lo, mul_comm hi]
  exact hb2

theorem exactMean_between {r n x : Nat} {v : Nat → K} (hx : x < n) {lo hi : K} (hu : ∀ i, Near r n x i → lo ≤ v i ∧ v i ≤ hi) :
    lo ≤ exactMean r n v x ∧ exactMean r n v x ≤ hi := by
  have hp := localCount_pos (r := r) hx
  have hq : (0 : K) < (localCount r n x : K) := by exact_mod_cast hp
  have hb := sumF_betweenK (n := localCount r n x) (c := fun _ => (1 : K)) (v := fun i => v (x - r + i)) (lo := lo) (hi := hi)
    (fun _ _ => zero_le_one) (fun i hi => hu _ (by unfold Near; unfold localCount at hi; omega))
  have hs : ∀ m : Nat, sumF m (fun _ => (1 : K)) = m := by
    intro m
    induction m with
    | zero => simp [sumF]
    | succ m ih => simp only [sumF, ih]; push_cast; rfl
  rw [hs] at hb
  simp only [one_mul] at hb
  unfold exactMean localSum
  rw [le_div_iff₀ hq, div_le_iff₀ hq, mul_comm lo, mul_comm hi]
  exact hb

end

theorem KeepsRange.of {near : Nat → Nat → Prop} {f : Nat → Nat → Int} {r : Int}
    (h : ∀ lo hi, (∀ i j, near i j → lo ≤ f i j ∧ f i j ≤ hi) → lo ≤ r ∧ r ≤ max hi (min (hi + 1) 0)) : KeepsRange 1 near f r :=
  ⟨fun lo hi hu => by have := h lo hi hu; omega,
    fun a h0 hu => by have := h a a (fun i j hij => by rw [hu i j hij]; exact ⟨Int.le_refl _, Int.le_refl _⟩); omega⟩

theorem KeepsRange.of2 {near : Nat → Nat → Prop} {f : Nat → Nat → Int} {r : Int}
    (h : ∀ lo hi, (∀ i j, near i j → lo ≤ f i j ∧ f i j ≤ hi) →
      lo ≤ r ∧ r ≤ max (max hi (min (hi + 1) 0)) (min (max hi (min (hi + 1) 0) + 1) 0)) : KeepsRange 2 near f r :=
  ⟨fun lo hi hu => by have := h lo hi hu; omega,
    fun a h0 hu => by have := h a a (fun i j hij => by rw [hu i j hij]; exact ⟨Int.le_refl _, Int.le_refl _⟩); omega⟩

theorem KeepsRangeK.of {K : Type} [LinearOrder K] {near : Nat → Nat → Prop} {f : Nat → Nat → K} {r : K}
    (h : ∀ lo hi, (∀ i j, near i j → lo ≤ f i j ∧ f i j ≤ hi) → lo ≤ r ∧ r ≤ hi) : KeepsRangeK near f r :=
  ⟨h, fun a e => by
    have := h a a (fun i j hn => by rw [e i j hn]; exact ⟨le_refl _, le_refl _⟩)
    exact le_antisymm this.2 this.1⟩

end Boof
