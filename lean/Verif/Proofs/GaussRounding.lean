import Verif.Proofs.RoundingRun
import Verif.Proofs.SigmaRounding
import Verif.Props.OtsuRounding
import Verif.Props.Kernel
/-
Gaussian kernels with rounding: what the functions return, and order and symmetry of the coefficients.
-/
namespace Boof
open M
variable {V S K : Type} [Field K] [LinearOrder K] [IsStrictOrderedRing K] [FloorRing K]

/-! ### formats -/

theorem roundEven_neg (q : K) : roundEven (-q) = -roundEven q := by
  by_cases hq : ∃ z : Int, q = (z : K)
  · obtain ⟨z, rfl⟩ := hq
    rw [← Int.cast_neg, roundEven_int, roundEven_int]
  have h1 := Int.floor_le q
  have h2 := Int.lt_floor_add_one q
  have h1' : (⌊q⌋ : K) < q := lt_of_le_of_ne h1 (fun e => hq ⟨_, e.symm⟩)
  have hf : ⌊-q⌋ = -⌊q⌋ - 1 := by
    rw [Int.floor_eq_iff]
    push_cast
    constructor <;> linarith
  have hr : -q - ((-⌊q⌋ - 1 : Int) : K) = 1 - (q - ⌊q⌋) := by push_cast; ring
  unfold roundEven
  rw [hf]
  simp only [hr]
  generalize q - (⌊q⌋ : K) = f
  rcases lt_trichotomy f (1 / 2) with c | c | c
  · have h3 : ¬ 1 - f < 1 / 2 := by linarith
    have h4 : 1 / 2 < 1 - f := by linarith
    simp only [if_pos c, if_neg h3, if_pos h4]
    omega
  · have h3 : ¬ 1 - f < 1 / 2 := by linarith
    have h4 : ¬ 1 / 2 < 1 - f := by linarith
    have h5 : ¬ f < 1 / 2 := by linarith
    have h6 : ¬ 1 / 2 < f := by linarith
    simp only [if_neg h3, if_neg h4, if_neg h5, if_neg h6]
    split <;> split <;> omega
  · have h3 : 1 - f < 1 / 2 := by linarith
    have h5 : ¬ f < 1 / 2 := by linarith
    simp only [if_pos h3, if_neg h5, if_pos c]
    omega

theorem ieee_format {p q w : Nat} (hp : 1 < p) (hw : p < w) : Format (ieee p q w : K → Option K) := by
  have hx := ieee_exact (K := K) (p := p) (q := q) (w := w) (by omega) hw
  refine ⟨fun x y a b hxy ea eb => ?_, fun x a e => ?_, ieee_idempotent hp, by simpa using hx 0 (Nat.zero_le _),
    by simpa using hx 1 (Nat.one_le_two_pow)⟩
  · by_contra hab
    rw [not_le] at hab
    obtain ⟨ra, na⟩ := ieee_nearest (by omega) ea
    obtain ⟨rb, nb⟩ := ieee_nearest (by omega) eb
    have h1 := na b rb
    have h2 := nb a ra
    have h3 : (a + b) / 2 ≤ x := by
      by_contra hc
      rw [not_le] at hc
      have : x < a := by linarith
      rw [abs_of_pos (by linarith : 0 < a - x)] at h1
      have := abs_lt.mpr (⟨by linarith, by linarith⟩ : -(a - x) < b - x ∧ b - x < a - x)
      linarith
    have h4 : y ≤ (a + b) / 2 := by
      by_contra hc
      rw [not_le] at hc
      have : b < y := by linarith
      rw [abs_of_neg (by linarith : b - y < 0)] at h2
      have := abs_lt.mpr (⟨by linarith, by linarith⟩ : -(-(b - y)) < a - y ∧ a - y < -(b - y))
      linarith
    have : x = y := by linarith
    subst this
    rw [ea] at eb
    have := Option.some.inj eb
    linarith
  · unfold ieee at e ⊢
    simp only at e ⊢
    rw [abs_neg, neg_div, roundEven_neg, Int.cast_neg, neg_mul, abs_neg]
    split at e
    · next c => rw [if_pos c, Option.some.inj e]
    · cases e

theorem float32_format : Format (float32 : K → Option K) := ieee_format (by omega) (by omega)
theorem float64_format : Format (float64 : K → Option K) := ieee_format (by omega) (by omega)

namespace Format
variable {rnd : K → Option K} {x a : K}

theorem nonneg (F : Format rnd) (hx : 0 ≤ x) (e : rnd x = some a) : 0 ≤ a := F.mono 0 x 0 a hx F.zero e
theorem nonpos (F : Format rnd) (hx : x ≤ 0) (e : rnd x = some a) : a ≤ 0 := F.mono x 0 a 0 hx e F.zero
theorem le_one (F : Format rnd) (hx : x ≤ 1) (e : rnd x = some a) : a ≤ 1 := F.mono x 1 a 1 hx e F.one

theorem abs (F : Format rnd) (e : rnd x = some a) : rnd |x| = some |a| := by
  rcases le_total 0 x with h | h
  · rw [abs_of_nonneg h, abs_of_nonneg (F.nonneg h e), e]
  · rw [abs_of_nonpos h, abs_of_nonpos (F.nonpos h e), F.neg x a e]

end Format

/-! ### filling a kernel -/

theorem loopS_ub' {β : Type} {n r : Nat} {s s' : β} {body : Nat → β → M V β} {h h' : Heap V} (hr : r < n)
    (e1 : M.loopS r s body h = .ok s' h') (e2 : body r s' h' = .ub) : M.loopS n s body h = .ub := by
  induction n with
  | zero => omega
  | succ n ih =>
    by_cases e : r = n
    · subst e; exact (M.bind_ok e1).trans e2
    · show M.bind _ _ h = _
      unfold M.bind
      rw [ih (by omega)]

theorem bindInv {α β : Type} {m : M V α} {f : α → M V β} {h h' : Heap V} {b : β} (e : (m >>= f) h = .ok b h') :
    ∃ a h1, m h = .ok a h1 ∧ f a h1 = .ok b h' := by
  change M.bind m f h = _ at e
  unfold M.bind at e
  split at e
  · next a h1 e1 => exact ⟨a, h1, e1, e⟩
  · cases e
  · cases e
  · cases e

theorem optBind {α β : Type} {o : Option α} {a : α} (e : o = some a) (f : α → M V β) (h : Heap V) : (opt o >>= f) h = f a h := by
  subst e; rfl

theorem optBind_none {α β : Type} {o : Option α} (e : o = none) (f : α → M V β) (h : Heap V) : (opt o >>= f) h = .ub := by
  subst e; rfl

/-- A loop which sets every coefficient, or does not return. -/
theorem fillInv {k k' : Kernel S} {w o : Nat} {c : Nat → S} {g : Nat → Option S} (hk : k.Is1D w o c)
    {body : Nat → Kernel S → M V (Kernel S)} {h h' : Heap V}
    (hb : ∀ i k1, i < w → k1.data.data[i]? = some (c i) → body i k1 h = (opt (g i) >>= fun v => k1.put i v : M V (Kernel S)) h)
    (e : M.loopS w k body h = .ok k' h') : ∃ v, (∀ i, i < w → g i = some (v i)) ∧ h' = h ∧ k'.Is1D w o v := by
  by_cases hall : ∀ i, i < w → g i ≠ none
  · have : ∀ i, ∃ v, i < w → g i = some v := fun i => by
      by_cases hi : i < w
      · obtain ⟨v, ev⟩ := Option.ne_none_iff_exists'.mp (hall i hi)
        exact ⟨v, fun _ => ev⟩
      · exact ⟨c 0, fun q => absurd q hi⟩
    choose v hv using this
    obtain ⟨k2, e2, hk2⟩ := fill1D hk (v := v) (body := body) (h := h) (fun i k1 hi hc _ => by
      rw [hb i k1 hi hc, optBind (hv i hi)])
    rw [e] at e2
    injection e2 with h1 h2
    subst h1; subst h2
    exact ⟨v, hv, rfl, hk2⟩
  · exfalso
    have hex : ∃ i, i < w ∧ g i = none := by
      by_contra hc
      exact hall (fun i hi hn => hc ⟨i, hi, hn⟩)
    classical
    obtain ⟨hr, hn⟩ := Nat.find_spec hex
    have hmin : ∀ j, j < Nat.find hex → g j ≠ none := fun j hj hjn => Nat.find_min hex hj ⟨by omega, hjn⟩
    generalize Nat.find hex = r at hr hn hmin
    have : ∀ i, ∃ v, i < r → g i = some v := fun i => by
      by_cases hi : i < r
      · obtain ⟨v, ev⟩ := Option.ne_none_iff_exists'.mp (hmin i hi)
        exact ⟨v, fun _ => ev⟩
      · exact ⟨c 0, fun q => absurd q hi⟩
    choose v hv using this
    have hl := hk.length
    have hcell : ∀ i k1, i < w → k.Filled v (fun j => False ∨ ∃ i', i' < i ∧ j = i') k1 → k1.data.data[i]? = some (c i) := by
      intro i k1 hi hf
      rw [hf.no]
      · exact hk.coef i hi
      · rintro (q | ⟨i', a, b⟩)
        · exact q
        · omega
    obtain ⟨k2, e2, f⟩ := (Kernel.Filled.refl k v).loop (n := r) (body := body) (h := h) (R := fun i j => j = i) (by
      intro i k1 hi hf
      rw [hb i k1 (by omega) (hcell i k1 (by omega) hf), optBind (hv i hi)]
      exact hf.put (by omega) rfl h)
    rw [loopS_ub' hr e2 ((hb r k2 hr (hcell r k2 hr f)).trans (optBind_none hn _ h))] at e
    cases e

/-! ### what the functions return -/

/-- `computePDF` as a function. -/
def pdfO (rnd : K → Option K) (ex : K → K) (c mean sigma sample : K) : Option K :=
  (rnd (sample - mean)).bind fun delta => (rnd (-delta * delta)).bind fun num => (rnd (2 * sigma)).bind fun two =>
    (rnd (two * sigma)).bind fun den => if den = 0 then none else (rnd (num / den)).bind fun q =>
      (rnd (sigma * c)).bind fun d => if d = 0 then none else rnd (ex q / d)

theorem pdf_opt (rnd : K → Option K) (ex : K → K) (c mean sigma sample : K) (h : Heap V) :
    FactoryKernel.computePDFR rnd ex c mean sigma sample h = opt (pdfO rnd ex c mean sigma sample) h := by
  unfold FactoryKernel.computePDFR pdfO
  rcases e1 : rnd (sample - mean) with _ | delta
  · rfl
  rw [optBind rfl, Option.bind_some]
  rcases e2 : rnd (-delta * delta) with _ | num
  · rfl
  rw [optBind rfl, Option.bind_some]
  rcases e3 : rnd (2 * sigma) with _ | two
  · rfl
  rw [optBind rfl, Option.bind_some]
  rcases e4 : rnd (two * sigma) with _ | den
  · rfl
  rw [optBind rfl, Option.bind_some]
  by_cases hd : den = 0
  · rw [if_pos hd, if_pos hd]; rfl
  rw [if_neg hd, if_neg hd]
  rcases e5 : rnd (num / den) with _ | q
  · rfl
  rw [optBind rfl, Option.bind_some]
  rcases e6 : rnd (sigma * c) with _ | d
  · rfl
  rw [optBind rfl, Option.bind_some]
  by_cases hd' : d = 0
  · rw [if_pos hd', if_pos hd']; rfl
  rw [if_neg hd', if_neg hd']

/-- One sample of `gaussian1D`. -/
def sampleO (rnd rndE : K → Option K) (ex : K → K) (c sigma : K) (w i : Nat) : Option K :=
  (rnd (fromMiddle K w i)).bind fun s => (pdfO rnd ex c 0 sigma s).bind rndE

theorem sample_fromMiddle {w : Nat} (i : Nat) :
    ((((i : Int) - (w : Int).tdiv 2 : Int) : K) + (if (w : Int).tmod 2 = 1 then 0 else 1/2)) = fromMiddle K w i := by
  unfold fromMiddle
  have e1 : (w : Int).tdiv 2 = ((w / 2 : Nat) : Int) := by
    rw [Int.tdiv_eq_ediv_of_nonneg (by omega)]; rfl
  have e2 : (w : Int).tmod 2 = ((w % 2 : Nat) : Int) := by
    rw [Int.tmod_eq_emod_of_nonneg (by omega)]; rfl
  rw [e1, e2]
  have hd : w = 2 * (w / 2) + w % 2 := (Nat.div_add_mod w 2).symm
  have hm : w % 2 = 0 ∨ w % 2 = 1 := by omega
  generalize w / 2 = r at *
  rcases hm with hm | hm
  · rw [hm] at hd ⊢
    rw [if_neg (by decide)]
    have : (w : K) = 2 * (r : K) := by rw [hd]; push_cast; ring
    rw [this]; push_cast; ring
  · rw [hm] at hd ⊢
    rw [if_pos (by decide)]
    have : (w : K) = 2 * (r : K) + 1 := by rw [hd]; push_cast; ring
    rw [this]; push_cast; ring

/-- `gaussian1D` with positive parameters. -/
def gaussCore (rnd rndE : K → Option K) (E : GrowArray.Elem K) (ex : K → K) (c sigma : K) (w : Nat) : M V (Kernel K) := do
  let ret ← Kernel1D.newWidth E (toU32 (w : Int))
  let ret ← M.loopS (w : Int).toNat ret (fun i k => do
    let sample ← opt (rnd ((((i : Int) - (w : Int).tdiv 2 : Int) : K) + (if (w : Int).tmod 2 = 1 then 0 else 1/2)))
    let p ← FactoryKernel.computePDFR rnd ex c 0 sigma sample
    let p ← opt (rndE p)
    k.put i p)
  FactoryKernel.normalizeR rndE ret

theorem gaussCore_both (rnd rndE : K → Option K) (E : GrowArray.Elem K) (ex : K → K) (c : K) {sigma : K} (hs : 0 < sigma) {w : Nat} (hw : 0 < w)
    (h : Heap V) : FactoryKernel.gaussian1DR rnd rndE E ex c sigma w h = gaussCore rnd rndE E ex c sigma w h := by
  unfold FactoryKernel.gaussian1DR
  rw [if_neg (by omega), if_neg (not_le.mpr hs)]
  rfl

/-- The body of the sampling loop. -/
theorem sample_body (rnd rndE : K → Option K) (ex : K → K) (c sigma : K) {w : Nat} (i : Nat) (k : Kernel K) (h : Heap V) :
    (do let sample ← opt (rnd ((((i : Int) - (w : Int).tdiv 2 : Int) : K) + (if (w : Int).tmod 2 = 1 then 0 else 1/2)))
        let p ← FactoryKernel.computePDFR rnd ex c 0 sigma sample
        let p ← opt (rndE p)
        k.put i p : M V (Kernel K)) h = (opt (sampleO rnd rndE ex c sigma w i) >>= fun v => k.put i v : M V (Kernel K)) h := by
  rw [sample_fromMiddle]
  unfold sampleO
  rcases e1 : rnd (fromMiddle K w i) with _ | s
  · rfl
  rw [optBind rfl, Option.bind_some]
  show M.bind _ _ h = _
  unfold M.bind
  rw [pdf_opt]
  rcases e2 : pdfO rnd ex c 0 sigma s with _ | p
  · rfl
  rfl

/-- `normalize` returns: what it has computed. -/
theorem normalizeR_inv {rnd : K → Option K} {k k' : Kernel K} {w o : Nat} {c : Nat → K} (hk : k.Is1D w o c) {h h' : Heap V} (hw : 0 < w)
    (e : FactoryKernel.normalizeR rnd k h = .ok k' h') :
    ∃ S v, foldO w (0 : K) (fun i t => rnd (t + c i)) = some S ∧ S ≠ 0 ∧ (∀ i, i < w → rnd (c i / S) = some (v i)) ∧ h' = h ∧ k'.Is1D w o v := by
  unfold FactoryKernel.normalizeR at e
  rcases eS : foldO w (0 : K) (fun i t => rnd (t + c i)) with _ | S
  · exfalso
    -- the first sum which is not defined
    have hsum : k.sum (V := V) 0 (fun a b => rnd (a + b)) h = .ub := by
      unfold Kernel.sum
      rw [hk.size]
      have main : ∀ n, n ≤ w → (∀ S, foldO n (0 : K) (fun i t => rnd (t + c i)) = some S → (M.loopS n (0 : K) (fun i total => do
          let v ← k.get i
          match rnd (total + v) with
          | some t => pure t
          | none => M.ub) h : Res (Heap V) K) = .ok S h) ∧
          (foldO n (0 : K) (fun i t => rnd (t + c i)) = none → (M.loopS n (0 : K) (fun i total => do
          let v ← k.get i
          match rnd (total + v) with
          | some t => pure t
          | none => M.ub) h : Res (Heap V) K) = .ub) := by
        intro n
        induction n with
        | zero => exact fun _ => ⟨fun S hS => by cases hS; rfl, fun q => by cases q⟩
        | succ n ih =>
          intro hn
          obtain ⟨i1, i2⟩ := ih (by omega)
          have hget : k.get (V := V) n h = .ok (c n) h := by
            unfold Kernel.get
            rw [hk.coef n (by omega)]
            rfl
          rcases ep : foldO n (0 : K) (fun i t => rnd (t + c i)) with _ | T
          · refine ⟨fun S hS => ?_, fun _ => ?_⟩
            · change (foldO n _ _).bind _ = _ at hS
              rw [ep] at hS; cases hS
            · show M.bind _ _ h = _
              unfold M.bind
              rw [i2 ep]
          · have hbody : ∀ r : Res (Heap V) K, (match rnd (T + c n) with
                | some t => pure t
                | none => (M.ub : M V K)) h = r → (M.loopS (n + 1) (0 : K) (fun i total => do
              let v ← k.get i
              match rnd (total + v) with
              | some t => pure t
              | none => M.ub) h : Res (Heap V) K) = r := by
              intro r hr
              exact ((M.bind_ok (i1 T ep)).trans (M.bind_ok hget)).trans hr
            refine ⟨fun S hS => hbody _ ?_, fun hS => hbody _ ?_⟩
            · change (foldO n _ _).bind _ = _ at hS
              rw [ep, Option.bind_some] at hS
              beta_reduce at hS
              rw [hS]; rfl
            · change (foldO n _ _).bind _ = _ at hS
              rw [ep, Option.bind_some] at hS
              beta_reduce at hS
              rw [hS]; rfl
      exact (main w (le_refl _)).2 eS
    change M.bind _ _ h = _ at e
    unfold M.bind at e
    rw [hsum] at e
    cases e
  · rw [M.bind_ok (kernelSumO_run k (c := c) hk.size hk.coef eS h), hk.width] at e
    by_cases hS : S = 0
    · exfalso
      subst hS
      rw [loopS_ub' (r := 0) (s' := k) (h' := h) hw rfl (by
        refine (M.bind_ok (a := c 0) (h' := h) ?_).trans ?_
        · unfold Kernel.get
          rw [hk.coef 0 hw]; rfl
        · rw [if_pos rfl]; rfl)] at e
      cases e
    · obtain ⟨v, hv, eh, hk'⟩ := fillInv hk (g := fun i => rnd (c i / S)) (fun i k1 hi hc => by
        refine (M.bind_ok (a := c i) (h' := h) ?_).trans ?_
        · unfold Kernel.get
          rw [hc]; rfl
        · rw [if_neg hS]) e
      exact ⟨S, v, rfl, hS, hv, eh, hk'⟩

theorem gaussCore_inv {rnd rndE : K → Option K} {E : GrowArray.Elem K} (hz : E.ms E.zero = E.zero) {ex : K → K} {c0 sigma : K} {w : Nat}
    (hw : 0 < w) (hw2 : w < 2147483648) {h h' : Heap V} {k : Kernel K} (e : gaussCore rnd rndE E ex c0 sigma w h = .ok k h') :
    ∃ (p : Nat → K) (S : K) (c : Nat → K), (∀ i, i < w → sampleO rnd rndE ex c0 sigma w i = some (p i)) ∧ foldO w (0 : K) (fun i t => rndE (t + p i)) = some S ∧ S ≠ 0 ∧
      (∀ i, i < w → rndE (p i / S) = some (c i)) ∧ h' = h ∧ k.Is1D w (w / 2) c := by
  unfold gaussCore at e
  rw [toU32_of_nonneg (by omega) (by show (w : Int) < (4294967296 : Nat); omega), Int.toNat_natCast] at e
  obtain ⟨k0, e0, hk0⟩ := (C42_new1D_middle E hz w h).2 hw
  rw [M.bind_ok e0] at e
  obtain ⟨k1, h1, e1, e2⟩ := bindInv e
  obtain ⟨p, hp, eh, hk1⟩ := fillInv hk0 (g := sampleO rnd rndE ex c0 sigma w) (fun i k1 _ _ => sample_body rnd rndE ex c0 sigma i k1 h) e1
  subst eh
  obtain ⟨S, c, eS, hS, hc, eh, hk⟩ := normalizeR_inv hk1 hw e2
  exact ⟨p, S, c, hp, eS, hS, hc, eh, hk⟩

/-- The converse. -/
theorem gaussCore_run {rnd rndE : K → Option K} {E : GrowArray.Elem K} (hz : E.ms E.zero = E.zero) {ex : K → K} {c0 sigma : K} {w : Nat}
    (hw : 0 < w) (hw2 : w < 2147483648) (h : Heap V) {p c : Nat → K} {S : K} (hp : ∀ i, i < w → sampleO rnd rndE ex c0 sigma w i = some (p i))
    (eS : foldO w (0 : K) (fun i t => rndE (t + p i)) = some S) (hS : S ≠ 0) (hc : ∀ i, i < w → rndE (p i / S) = some (c i)) :
    ∃ k, gaussCore rnd rndE E ex c0 sigma w h = .ok k h ∧ k.Is1D w (w / 2) c := by
  unfold gaussCore
  rw [toU32_of_nonneg (by omega) (by show (w : Int) < (4294967296 : Nat); omega), Int.toNat_natCast]
  obtain ⟨k0, e0, hk0⟩ := (C42_new1D_middle E hz w h).2 hw
  obtain ⟨k1, e1, hk1⟩ := fill1D hk0 (v := p) (h := h) (fun i k1 hi _ _ =>
    (sample_body rnd rndE ex c0 sigma (w := w) i k1 h).trans (optBind (hp i hi) _ h))
  rw [M.bind_ok e0, M.bind_ok e1]
  unfold FactoryKernel.normalizeR
  rw [M.bind_ok (kernelSumO_run k1 (c := p) hk1.size hk1.coef eS h), hk1.width]
  obtain ⟨k2, e2, hk2⟩ := fill1D hk1 (v := c) (h := h) (body := fun i k => do
      let v ← k.get i
      if S = 0 then M.ub else do
        let q ← opt (rndE (v / S))
        k.put i q) (fun i k hi hcell _ => by
    refine (M.bind_ok (a := p i) (h' := h) ?_).trans ?_
    · unfold Kernel.get
      rw [hcell]; rfl
    · rw [if_neg hS]
      exact optBind (hc i hi) _ h)
  exact ⟨k2, e2, hk2⟩

/-! ### order and symmetry -/

section
variable {rnd rndE : K → Option K} {ex : K → K} {c0 sigma : K} {w : Nat}

theorem pdfO_neg (F : Format rnd) {s : K} : pdfO rnd ex c0 0 sigma (-s) = pdfO rnd ex c0 0 sigma s := by
  unfold pdfO
  rw [sub_zero, sub_zero]
  rcases e : rnd s with _ | a
  · rcases e' : rnd (-s) with _ | b
    · rfl
    · have := F.neg _ _ e'
      rw [neg_neg, e] at this; cases this
  · rw [F.neg s a e, Option.bind_some, Option.bind_some]
    rw [show -(-a) * -a = -a * a by ring]

theorem sampleO_symm (F : Format rnd) {i : Nat} (hi : i < w) :
    sampleO rnd rndE ex c0 sigma w (w - 1 - i) = sampleO rnd rndE ex c0 sigma w i := by
  unfold sampleO
  rw [fromMiddle_symm hi]
  rcases e : rnd (fromMiddle K w i) with _ | a
  · rcases e' : rnd (-fromMiddle K w i) with _ | b
    · rfl
    · have := F.neg _ _ e'
      rw [neg_neg, e] at this; cases this
  · rw [F.neg _ a e, Option.bind_some, Option.bind_some, pdfO_neg F]

theorem sampleO_nonneg (F : Format rnd) (FE : Format rndE) (hc0 : 0 < c0) (hs : 0 < sigma) (hex : ∀ x, 0 ≤ ex x) {i : Nat} {p : K}
    (e : sampleO rnd rndE ex c0 sigma w i = some p) : 0 ≤ p := by
  unfold sampleO at e
  obtain ⟨s, -, e⟩ := Option.bind_eq_some_iff.mp e
  obtain ⟨v, ev, e⟩ := Option.bind_eq_some_iff.mp e
  refine FE.nonneg ?_ e
  unfold pdfO at ev
  obtain ⟨a, -, ev⟩ := Option.bind_eq_some_iff.mp ev
  obtain ⟨n, -, ev⟩ := Option.bind_eq_some_iff.mp ev
  obtain ⟨t, -, ev⟩ := Option.bind_eq_some_iff.mp ev
  obtain ⟨d, -, ev⟩ := Option.bind_eq_some_iff.mp ev
  split at ev
  · cases ev
  obtain ⟨q, -, ev⟩ := Option.bind_eq_some_iff.mp ev
  obtain ⟨f, ef, ev⟩ := Option.bind_eq_some_iff.mp ev
  split at ev
  · cases ev
  exact F.nonneg (div_nonneg (hex q) (F.nonneg (mul_pos hs hc0).le ef)) ev

theorem sampleO_anti (F : Format rnd) (FE : Format rndE) (hc0 : 0 < c0) (hs : 0 < sigma) (hmono : ∀ x y, x ≤ y → y ≤ 0 → ex x ≤ ex y)
    {i j : Nat} (hij : |fromMiddle K w i| ≤ |fromMiddle K w j|) {p p' : K} (e : sampleO rnd rndE ex c0 sigma w i = some p)
    (e' : sampleO rnd rndE ex c0 sigma w j = some p') : p' ≤ p := by
  unfold sampleO at e e'
  obtain ⟨s, es, e⟩ := Option.bind_eq_some_iff.mp e
  obtain ⟨s', es', e'⟩ := Option.bind_eq_some_iff.mp e'
  have h1 := F.mono _ _ _ _ hij (F.abs es) (F.abs es')
  obtain ⟨v, ev, e⟩ := Option.bind_eq_some_iff.mp e
  obtain ⟨v', ev', e'⟩ := Option.bind_eq_some_iff.mp e'
  refine FE.mono _ _ _ _ ?_ e' e
  unfold pdfO at ev ev'
  rw [sub_zero] at ev ev'
  obtain ⟨a, ea, ev⟩ := Option.bind_eq_some_iff.mp ev
  obtain ⟨a', ea', ev'⟩ := Option.bind_eq_some_iff.mp ev'
  have h2 := F.mono _ _ _ _ h1 (F.abs ea) (F.abs ea')
  obtain ⟨n, en, ev⟩ := Option.bind_eq_some_iff.mp ev
  obtain ⟨n', en', ev'⟩ := Option.bind_eq_some_iff.mp ev'
  have h3 : n' ≤ n := by
    refine F.mono _ _ _ _ ?_ en' en
    have := mul_self_le_mul_self (abs_nonneg a) h2
    rw [abs_mul_abs_self, abs_mul_abs_self] at this
    linarith
  obtain ⟨t, et, ev⟩ := Option.bind_eq_some_iff.mp ev
  obtain ⟨t', et', ev'⟩ := Option.bind_eq_some_iff.mp ev'
  have : t' = t := Option.some.inj (et'.symm.trans et)
  subst this
  obtain ⟨d, ed, ev⟩ := Option.bind_eq_some_iff.mp ev
  obtain ⟨d', ed', ev'⟩ := Option.bind_eq_some_iff.mp ev'
  have : d' = d := Option.some.inj (ed'.symm.trans ed)
  subst this
  split at ev
  · cases ev
  next hd0 =>
  rw [if_neg hd0] at ev'
  have hd : 0 < d' := lt_of_le_of_ne (F.nonneg (mul_nonneg (F.nonneg (by linarith) et) hs.le) ed) (Ne.symm hd0)
  obtain ⟨q, eq, ev⟩ := Option.bind_eq_some_iff.mp ev
  obtain ⟨q', eq', ev'⟩ := Option.bind_eq_some_iff.mp ev'
  have h4 := hmono _ _ (F.mono _ _ _ _ (div_le_div_of_nonneg_right h3 hd.le) eq' eq)
    (F.nonpos (div_nonpos_of_nonpos_of_nonneg (F.nonpos (by nlinarith [mul_self_nonneg a]) en) hd.le) eq)
  obtain ⟨f, ef, ev⟩ := Option.bind_eq_some_iff.mp ev
  obtain ⟨f', ef', ev'⟩ := Option.bind_eq_some_iff.mp ev'
  have : f' = f := Option.some.inj (ef'.symm.trans ef)
  subst this
  split at ev
  · cases ev
  next hf0 =>
  rw [if_neg hf0] at ev'
  exact F.mono _ _ _ _ (div_le_div_of_nonneg_right h4 (F.nonneg (mul_pos hs hc0).le ef)) ev' ev

/-- Rounded sums of numbers of the format which are not negative are at least as large as each of them. -/
theorem foldO_ge (F : Format rnd) {p : Nat → K} (hp : ∀ i, i < w → 0 ≤ p i) (hfix : ∀ i, i < w → rnd (p i) = some (p i)) {S : K}
    (e : foldO w (0 : K) (fun i t => rnd (t + p i)) = some S) : 0 ≤ S ∧ rnd S = some S ∧ ∀ i, i < w → p i ≤ S := by
  induction w generalizing S with
  | zero =>
    cases e
    exact ⟨le_refl _, F.zero, fun i hi => absurd hi (Nat.not_lt_zero i)⟩
  | succ w ih =>
    change (foldO w _ _).bind _ = _ at e
    obtain ⟨T, eT, e⟩ := Option.bind_eq_some_iff.mp e
    obtain ⟨h1, h2, h3⟩ := ih (fun i hi => hp i (by omega)) (fun i hi => hfix i (by omega)) eT
    have hw := hp w (by omega)
    have h4 := F.mono T (T + p w) T S (by linarith) h2 e
    refine ⟨le_trans h1 h4, F.fixed _ _ e, fun i hi => ?_⟩
    by_cases hiw : i = w
    · subst hiw
      exact F.mono (p i) (T + p i) (p i) S (by linarith) (hfix i (by omega)) e
    · exact le_trans (h3 i (by omega)) h4

end
end Boof
