import Verif.Model.Blur
import Verif.Proofs.NormalizedRun
namespace Boof
open M
variable {V S T α β : Type} {h1 : Heap V} {g : Gray} {F : Nat → Nat → V}

/-- `m` returns `a` and writes the pixels in `R` with their values `F`. -/
def Does (h1 : Heap V) (g : Gray) (F : Nat → Nat → V) (m : M V α) (a : α) (R : Nat → Nat → Prop) : Prop :=
  ∀ P h2, Painted h1 h2 g (sel P F) →
    Spec m h2 (fun r h3 => r = a ∧ Painted h1 h3 g (sel (fun x y => P x y ∨ R x y) F))

namespace Does

theorem congr {m : M V α} {a : α} {R R' : Nat → Nat → Prop} (hm : Does h1 g F m a R)
    (e : ∀ x y, x < g.width → y < g.height → (R x y ↔ R' x y)) : Does h1 g F m a R' :=
  fun P h2 hp => (hm P h2 hp).conseq (fun _ _ p => ⟨p.1, p.2.sel_iff (fun x y hx hy => by rw [e x y hx hy])⟩)

theorem pure (a : α) : Does h1 g F (Pure.pure a : M V α) a (fun _ _ => False) :=
  fun P h2 hp => Spec.pure ⟨rfl, hp.sel_iff (fun x y _ _ => by simp)⟩

theorem computes {m : M V α} {a : α} {f : α → M V β} {b : β} {R : Nat → Nat → Prop} (hm : Computes h1 g F m a)
    (hf : Does h1 g F (f a) b R) : Does h1 g F (m >>= f) b R :=
  fun P h2 hp => Spec.bind_eq (hm P h2 hp) (hf P h2 hp)

theorem bind {m : M V α} {a : α} {f : α → M V β} {b : β} {R R' : Nat → Nat → Prop} (hm : Does h1 g F m a R)
    (hf : Does h1 g F (f a) b R') : Does h1 g F (m >>= f) b (fun x y => R x y ∨ R' x y) :=
  fun P h2 hp => (hm P h2 hp).bind (fun r h3 p3 => by
    obtain ⟨rfl, p3⟩ := p3
    exact (hf _ h3 p3).conseq (fun _ _ p => ⟨p.1, p.2.sel_iff (fun x y _ _ => or_assoc)⟩))

theorem paints {m : M V Unit} {f : Unit → M V β} {b : β} {R R' : Nat → Nat → Prop} (hm : Paints h1 g F m R)
    (hf : Does h1 g F (f ()) b R') : Does h1 g F (m >>= f) b (fun x y => R x y ∨ R' x y) :=
  fun P h2 hp => (hm P h2 hp).bind (fun _ h3 p3 =>
    (hf _ h3 p3).conseq (fun _ _ p => ⟨p.1, p.2.sel_iff (fun x y _ _ => or_assoc)⟩))

theorem loopS {n : Nat} {s : Nat → β} {body : Nat → β → M V β} {R : Nat → Nat → Nat → Prop}
    (hb : ∀ i, i < n → Does h1 g F (body i (s i)) (s (i+1)) (R i)) :
    Does h1 g F (M.loopS n (s 0) body) (s n) (fun x y => ∃ i, i < n ∧ R i x y) := by
  induction n with
  | zero => exact (Does.pure (s 0)).congr (fun x y _ _ => by simp)
  | succ n ih =>
    refine (Does.bind (ih (fun i hi => hb i (by omega))) (hb n (by omega))).congr (fun x y _ _ => ?_)
    constructor
    · rintro (⟨i, hi, r⟩ | r)
      · exact ⟨i, by omega, r⟩
      · exact ⟨n, by omega, r⟩
    · rintro ⟨i, hi, r⟩
      rcases Nat.lt_or_ge i n with h | h
      · exact Or.inl ⟨i, h, r⟩
      · have : i = n := by omega
        subst this; exact Or.inr r

theorem done {m : M V α} {a : α} {R : Nat → Nat → Prop} (hm : Does h1 g F m a R) :
    Paints h1 g F (do let _ ← m; Pure.pure ()) R :=
  fun P h2 hp => (hm P h2 hp).bind (fun _ _ p => Spec.pure p.2)

theorem paint {m : M V α} {a : α} {f : α → M V Unit} {R R' : Nat → Nat → Prop} (hm : Does h1 g F m a R)
    (hf : Paints h1 g F (f a) R') : Paints h1 g F (m >>= f) (fun x y => R x y ∨ R' x y) :=
  fun P h2 hp => (hm P h2 hp).bind (fun r h3 p3 => by
    obtain ⟨rfl, p3⟩ := p3
    exact (hf _ h3 p3).conseq (fun _ _ p => p.sel_iff (fun x y _ _ => or_assoc)))

end Does

/-- The sliding sums over the line `v` of `n` samples: `tot p` is the sum of `kw` samples from `p` on and `out p` its
average. -/
structure Slides (B : MeanArith V T) (kw n : Nat) (v : Nat → V) (tot : Nat → T) (out : Nat → V) : Prop where
  first : foldO kw B.zero (fun i t => B.add t (v i)) = some (tot 0)
  next : ∀ p, p + kw < n → (B.sub (tot p) (v p)).bind (fun t => B.add t (v (p + kw))) = some (tot (p + 1))
  last : ∀ p, p + kw ≤ n → B.fin kw (tot p) = some (out p)

variable {B : MeanArith V T} {a : Gray} {r : Nat} {f : Nat → Nat → V}

theorem mean_innerHorizontal (hv : g.Valid h1) (ew : g.width = a.width) (eh : g.height = a.height)
    (ha : Pixels h1 g F a f) (hkw : 2 * r + 1 ≤ a.width)
    (hs : ∀ y, y < a.height → ∃ tot, Slides B (2 * r + 1) a.width (fun i => f i y) tot (fun p => F (p + r) y)) :
    Paints h1 g F (ConvolveImageMean.innerHorizontal B a g r) (fun x _ => r ≤ x ∧ x + r < a.width) := by
  have wl := ha.valid.widthLt
  unfold P32 at wl
  have ek : wrap32 (r * 2 + 1) = 2 * r + 1 := by
    rw [wrap32_of_lt (by show _ < (4294967296:Nat); omega)]; omega
  unfold ConvolveImageMean.innerHorizontal
  simp only [ek]
  refine (Paints.loop (R := fun y x' y' => (r ≤ x' ∧ x' + r < a.width) ∧ y' = y) (fun y hy => ?_)).congr
    (fun x' y' hx hy => ⟨fun ⟨y, _, h, _⟩ => h, fun h => ⟨y', by omega, h, rfl⟩⟩)
  obtain ⟨tot, ht⟩ := hs y hy
  have r1 := hv.rowEnd_lt (y := y) (by omega)
  have r2 := ha.valid.rowEnd_lt (y := y) hy
  unfold P32 at r1 r2
  have c1 : a.stride * y = y * a.stride := Nat.mul_comm _ _
  have c2 : g.stride * y = y * g.stride := Nat.mul_comm _ _
  have e1 : wrap32 (a.offset + y * a.stride) = a.offset + y * a.stride := wrap32_of_lt (by show _ < (4294967296:Nat); omega)
  have e2 : wrap32 (g.offset + y * g.stride + r) = g.offset + y * g.stride + r :=
    wrap32_of_lt (by show _ < (4294967296:Nat); omega)
  have e3 : wrap32 (a.offset + y * a.stride + (2 * r + 1)) = a.offset + y * a.stride + (2 * r + 1) :=
    wrap32_of_lt (by show _ < (4294967296:Nat); omega)
  have e4 : a.offset + y * a.stride + (2 * r + 1) - (a.offset + y * a.stride) = 2 * r + 1 := by omega
  have e5 : max (a.offset + y * a.stride) (a.offset + y * a.stride + (2 * r + 1)) = a.offset + y * a.stride + (2 * r + 1) := by
    omega
  have e6 : sub32 (a.offset + y * a.stride + (2 * r + 1)) (2 * r + 1) = a.offset + y * a.stride := by
    rw [sub32_of_le (by omega) (by show _ < (4294967296:Nat); omega)]; omega
  have e7 : sub32 a.width (2 * r + 1) = a.width - (2 * r + 1) := sub32_of_le hkw (by show _ < (4294967296:Nat); omega)
  simp only [c1, c2, e1, e2, e3, e4, e5, e6, e7]
  refine Paints.bind (Computes.foldO (fun i t t' hi e => Computes.bind (ha.read i y _ (by omega) hy
    (by unfold Gray.addr; omega)) (Computes.opt e)) ht.first) ?_
  refine Paints.bind (Computes.opt (ht.last 0 (by omega))) ?_
  refine (Paints.seq (R := fun x' y' => x' = 0 + r ∧ y' = y) ?_
    (Does.done (Does.loopS (s := tot) (R := fun i x' y' => x' = i + 1 + r ∧ y' = y) (fun i hi => ?_)))).congr
    (fun x' y' _ _ => ?_)
  · exact Paints.wr hv (x := 0 + r) (y := y) (by omega) (by omega) (by unfold Gray.addr; omega) rfl
  · have hn := ht.next i (by omega)
    obtain ⟨t, q1, q2⟩ := Option.bind_eq_some_iff.mp hn
    refine Does.computes (ha.read i y _ (by omega) hy (by unfold Gray.addr; omega)) ?_
    refine Does.computes (ha.read (i + (2 * r + 1)) y _ (by omega) hy (by unfold Gray.addr; omega)) ?_
    refine Does.computes (Computes.opt q1) (Does.computes (Computes.opt q2) ?_)
    refine Does.computes (Computes.opt (ht.last (i + 1) (by omega))) ?_
    refine (Does.paints (f := fun _ => pure (tot (i + 1))) (R := fun x' y' => x' = i + 1 + r ∧ y' = y) ?_ (Does.pure _)).congr (fun x' y' _ _ => by simp)
    exact Paints.wr hv (x := i + 1 + r) (y := y) (by omega) (by omega) (by unfold Gray.addr; omega) rfl
  · constructor
    · rintro (⟨rfl, rfl⟩ | ⟨i, hi, rfl, rfl⟩) <;> omega
    · rintro ⟨⟨h, h'⟩, rfl⟩
      rcases Nat.lt_or_ge r x' with h2 | h2
      · exact Or.inr ⟨x' - r - 1, by omega, by omega, rfl⟩
      · exact Or.inl ⟨by omega, rfl⟩

theorem stepCount_mul {i n s : Nat} (hs : 0 < s) : ConvolveImageMean.stepCount i (i + s * n) s = n := by
  unfold ConvolveImageMean.stepCount
  have : i + s * n - i + (s - 1) = (s - 1) + s * n := by omega
  rw [this, Nat.add_mul_div_left _ _ hs, Nat.div_eq_of_lt (by omega)]; omega

/-- The array of running sums after `x` columns. -/
def totalsAt (old new : Nat → Option T) (x : Nat) : Nat → Option T := fun j => if j < x then new j else old j

theorem totalsAt_succ {old new : Nat → Option T} {x : Nat} :
    (fun j => if j = x then new x else totalsAt old new x j) = totalsAt old new (x + 1) := by
  funext j
  unfold totalsAt
  by_cases e : j = x
  · subst e; rw [if_pos rfl, if_pos (by omega)]
  · rw [if_neg e]
    by_cases h : j < x
    · rw [if_pos h, if_pos (by omega)]
    · rw [if_neg h, if_neg (by omega)]

/-- The array of running sums for windows which start in row `p`. -/
def totalsOf (w : Nat) (tot : Nat → Nat → T) (p : Nat) : Nat → Option T := fun j => if j < w then some (tot j p) else none

theorem mean_innerVertical (hv : g.Valid h1) (ew : g.width = a.width) (eh : g.height = a.height)
    (ha : Pixels h1 g F a f) (hr : 0 < r) (hkw : 2 * r + 1 ≤ a.height) (hlen : a.dataLength < 2147483648) {tot : Nat → Nat → T}
    (hidx : ∀ b, b = 0 ∨ (a.offset ≤ b ∧ b < a.offset + a.width) → B.index b a.stride (2 * r + 1) = some (wrap32 (b + a.stride * (2 * r + 1))))
    (hs : ∀ x, x < a.width → Slides B (2 * r + 1) a.height (fun i => f x i) (tot x) (fun p => F x (p + r))) :
    Paints h1 g F (ConvolveImageMean.innerVertical B a g r) (fun _ y => r ≤ y ∧ y + r < a.height) := by
  have hl := ha.valid.heightLt
  unfold P32 at hl
  have ek : wrap32 (r * 2 + 1) = 2 * r + 1 := by
    rw [wrap32_of_lt (by show _ < (4294967296:Nat); omega)]; omega
  have ey : wrap32 (r + 1) = r + 1 := wrap32_of_lt (by show _ < (4294967296:Nat); omega)
  have es : sub32 g.height r = a.height - r := by
    rw [eh, sub32_of_le (by omega) (by show _ < (4294967296:Nat); omega)]
  unfold ConvolveImageMean.innerVertical
  simp only [ek, ey, es]
  refine Paints.bind (Computes.opt (hidx 0 (Or.inl rfl))) ?_
  rw [show 0 + a.stride * (2 * r + 1) = (2 * r + 1) * a.stride by rw [Nat.zero_add, Nat.mul_comm]]
  refine (Does.paint (a := totalsOf a.width tot 0) (R := fun x' y' => x' < a.width ∧ y' = r) ?_
    (Does.done (a := totalsOf a.width tot (a.height - r - (r + 1)))
      (R := fun x' y' => x' < a.width ∧ r + 1 ≤ y' ∧ y' + r < a.height) ?_)).congr (fun x' y' hx hy => by omega)
  · have hd := Does.loopS (h1 := h1) (g := g) (F := F) (n := a.width)
      (s := totalsAt (fun _ => none) (totalsOf a.width tot 0)) (R := fun x x' y' => x' = x ∧ y' = r)
      (body := fun x (totals : Nat → Option T) => do
        let indexIn := wrap32 (a.offset + x)
        let indexOut := wrap32 (g.offset + g.stride * r + x)
        let indexEnd ← opt (B.index indexIn a.stride (2 * r + 1))
        let total ← M.loopS (ConvolveImageMean.stepCount indexIn indexEnd a.stride) B.zero (fun i total => do
          let v ← rd a.buf (wrap32 (indexIn + i * a.stride))
          opt (B.add total v))
        let v ← opt (B.fin (2 * r + 1) total)
        wr g.buf indexOut v
        pure (fun j => if j = x then some total else totals j)) (fun x hx => ?_)
    · have q0 : totalsAt (fun _ => none) (totalsOf a.width tot 0) 0 = fun _ => none := by
        funext j; unfold totalsAt; rw [if_neg (by omega)]
      have q1 : totalsAt (fun _ => none) (totalsOf a.width tot 0) a.width = totalsOf a.width tot 0 := by
        funext j; unfold totalsAt totalsOf
        by_cases h : j < a.width
        · rw [if_pos h]
        · rw [if_neg h, if_neg h]
      rw [q0, q1] at hd
      refine hd.congr (fun x' y' hx hy => ⟨?_, fun ⟨h, h'⟩ => ⟨x', h, rfl, h'⟩⟩)
      rintro ⟨x, h, rfl, h'⟩
      exact ⟨h, h'⟩
    · have ht := hs x hx
      have p1 := ha.valid.rowLe
      have b1 : a.offset + x + a.stride * (2 * r + 1) < 4294967296 := by
        have q1 := ha.valid.addr_lt hx (y := 2 * r) (by omega)
        have q2 := ha.valid.fits 1 (by omega)
        have q3 : a.stride * (2 * r + 1) = 2 * r * a.stride + a.stride := by
          rw [Nat.mul_add, Nat.mul_one, Nat.mul_comm]
        unfold Gray.addr at q1
        omega
      have b2 := hv.addr_lt32 (x := x) (y := r) (by omega) (by omega)
      unfold Gray.addr P32 at b2
      have c1 : g.stride * r = r * g.stride := Nat.mul_comm _ _
      have e1 : wrap32 (a.offset + x) = a.offset + x := wrap32_of_lt (by show _ < (4294967296:Nat); omega)
      have e2 : wrap32 (a.offset + x + a.stride * (2 * r + 1)) = a.offset + x + a.stride * (2 * r + 1) := wrap32_of_lt b1
      have e3 : wrap32 (g.offset + g.stride * r + x) = g.addr x r := by
        rw [c1, wrap32_of_lt (by show _ < (4294967296:Nat); omega)]; rfl
      simp only [e1, e3]
      refine Does.computes (Computes.opt ((hidx _ (Or.inr ?_)).trans (congrArg some e2))) ?_
      · have q1 := ha.valid.addr_lt hx (y := 0) (by omega)
        unfold Gray.addr at q1
        omega
      rw [stepCount_mul (by omega)]
      refine Does.computes (Computes.foldO (fun i t t' hi e => Computes.bind (a := f x i) ?_ (Computes.opt e)) ht.first) ?_
      · have hadd : a.offset + x + i * a.stride = a.addr x i := by unfold Gray.addr; omega
        rw [hadd, wrap32_of_lt (ha.valid.addr_lt32 hx (by omega))]
        exact ha.read x i _ hx (by omega) rfl
      refine Does.computes (Computes.opt (ht.last 0 (by omega))) ?_
      have hst : (fun j => if j = x then some (tot x 0) else totalsAt (fun _ => none) (totalsOf a.width tot 0) x j) =
          totalsAt (fun _ => none) (totalsOf a.width tot 0) (x + 1) := by
        rw [← totalsAt_succ]
        funext j
        have : totalsOf a.width tot 0 x = some (tot x 0) := by unfold totalsOf; rw [if_pos hx]
        rw [this]
      refine (Does.paints (Paints.wr hv (x := x) (y := r) (by omega) (by omega) rfl (by rw [Nat.zero_add])) ?_).congr
        (R := fun x' y' => (x' = x ∧ y' = r) ∨ False) (fun x' y' _ _ => by simp)
      rw [hst]
      exact Does.pure _
  · have hd := Does.loopS (h1 := h1) (g := g) (F := F) (n := a.height - r - (r + 1))
      (s := totalsOf a.width tot) (R := fun i x' y' => x' < a.width ∧ y' = r + 1 + i)
      (body := fun i totals => do
        let y := r + 1 + i
        let indexIn := wrap32 (a.offset + wrap32 (y + r) * a.stride)
        let indexOut := wrap32 (g.offset + y * g.stride)
        let front := sub32 indexIn (wrap32 ((2 * r + 1) * a.stride))
        M.loopS a.width totals (fun x totals => do
          let t ← opt (totals x)
          let a' ← rd a.buf (front + x)
          let b ← rd a.buf (indexIn + x)
          let t ← opt (B.sub t a')
          let total ← opt (B.add t b)
          let v ← opt (B.fin (2 * r + 1) total)
          wr g.buf (indexOut + x) v
          pure (fun j => if j = x then some total else totals j))) (fun p hp => ?_)
    · refine hd.congr (fun x' y' hx hy => ⟨?_, fun ⟨h, h', h''⟩ => ⟨y' - (r + 1), by omega, h, by omega⟩⟩)
      rintro ⟨i, h, h', rfl⟩
      exact ⟨h', by omega, by omega⟩
    · have hy : r + 1 + p + r < a.height := by omega
      have r1 := hv.rowEnd_lt (y := r + 1 + p) (by omega)
      have r2 := ha.valid.rowEnd_lt (y := r + 1 + p + r) hy
      unfold P32 at r1 r2
      have e0 : wrap32 (r + 1 + p + r) = r + 1 + p + r := wrap32_of_lt (by show _ < (4294967296:Nat); omega)
      have e1 : wrap32 (a.offset + (r + 1 + p + r) * a.stride) = a.offset + (r + 1 + p + r) * a.stride :=
        wrap32_of_lt (by show _ < (4294967296:Nat); omega)
      have e2 : wrap32 (g.offset + (r + 1 + p) * g.stride) = g.offset + (r + 1 + p) * g.stride :=
        wrap32_of_lt (by show _ < (4294967296:Nat); omega)
      have em : (r + 1 + p + r) * a.stride = p * a.stride + (2 * r + 1) * a.stride := by
        rw [← Nat.add_mul]; congr 1; omega
      have e3 : wrap32 ((2 * r + 1) * a.stride) = (2 * r + 1) * a.stride :=
        wrap32_of_lt (by show _ < (4294967296:Nat); omega)
      have e4 : sub32 (a.offset + (r + 1 + p + r) * a.stride) ((2 * r + 1) * a.stride) = a.offset + p * a.stride := by
        rw [sub32_of_le (by omega) (by show _ < (4294967296:Nat); omega)]; omega
      simp only [e0, e1, e2, e3, e4]
      have hd2 := Does.loopS (h1 := h1) (g := g) (F := F) (n := a.width)
        (s := totalsAt (totalsOf a.width tot p) (totalsOf a.width tot (p + 1))) (R := fun x x' y' => x' = x ∧ y' = r + 1 + p)
        (body := fun x totals => do
          let t ← opt (totals x)
          let a' ← rd a.buf (a.offset + p * a.stride + x)
          let b ← rd a.buf (a.offset + (r + 1 + p + r) * a.stride + x)
          let t ← opt (B.sub t a')
          let total ← opt (B.add t b)
          let v ← opt (B.fin (2 * r + 1) total)
          wr g.buf (g.offset + (r + 1 + p) * g.stride + x) v
          pure (fun j => if j = x then some total else totals j)) (fun x hx => ?_)
      · have q0 : totalsAt (totalsOf a.width tot p) (totalsOf a.width tot (p + 1)) 0 = totalsOf a.width tot p := by
          funext j; unfold totalsAt; rw [if_neg (by omega)]
        have q1 : totalsAt (totalsOf a.width tot p) (totalsOf a.width tot (p + 1)) a.width = totalsOf a.width tot (p + 1) := by
          funext j; unfold totalsAt totalsOf
          by_cases h : j < a.width
          · rw [if_pos h]
          · rw [if_neg h, if_neg h, if_neg h]
        rw [q0, q1] at hd2
        refine hd2.congr (fun x' y' hx hy => ⟨?_, fun ⟨h, h'⟩ => ⟨x', h, rfl, h'⟩⟩)
        rintro ⟨x, h, rfl, h'⟩
        exact ⟨h, h'⟩
      · have ht := hs x hx
        have hcur : totalsAt (totalsOf a.width tot p) (totalsOf a.width tot (p + 1)) x x = some (tot x p) := by
          unfold totalsAt totalsOf; rw [if_neg (by omega), if_pos hx]
        obtain ⟨t, q1, q2⟩ := Option.bind_eq_some_iff.mp (ht.next p (by omega))
        refine Does.computes (Computes.opt hcur) ?_
        refine Does.computes (ha.read x p _ hx (by omega) (by unfold Gray.addr; omega)) ?_
        refine Does.computes (ha.read x (p + (2 * r + 1)) _ hx (by omega)
          (by unfold Gray.addr; rw [em, Nat.add_mul p])) ?_
        refine Does.computes (Computes.opt q1) (Does.computes (Computes.opt q2) ?_)
        refine Does.computes (Computes.opt (ht.last (p + 1) (by omega))) ?_
        have hst : (fun j => if j = x then some (tot x (p + 1)) else
            totalsAt (totalsOf a.width tot p) (totalsOf a.width tot (p + 1)) x j) =
            totalsAt (totalsOf a.width tot p) (totalsOf a.width tot (p + 1)) (x + 1) := by
          rw [← totalsAt_succ]
          funext j
          have : totalsOf a.width tot (p + 1) x = some (tot x (p + 1)) := by unfold totalsOf; rw [if_pos hx]
          rw [this]
        refine (Does.paints (R := fun x' y' => x' = x ∧ y' = r + 1 + p) ?_ ?_).congr
          (R := fun x' y' => (x' = x ∧ y' = r + 1 + p) ∨ False) (fun x' y' _ _ => by simp)
        · refine Paints.wr hv (x := x) (y := r + 1 + p) (by omega) (by omega) (by unfold Gray.addr; omega) ?_
          congr 1; omega
        · rw [hst]
          exact Does.pure _

end Boof
