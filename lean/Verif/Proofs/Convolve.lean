import Verif.Proofs.Paints
import Verif.Props.Border
import Verif.Proofs.Kernel
import Verif.Spec.Convolve
namespace Boof
open M
variable {V S : Type} {h1 : Heap V} {g : Gray} {F : Nat → Nat → V}

/-- A loop of read-only steps computes a fold. -/
theorem Computes.foldO {α : Type} {n : Nat} {s0 s : α} {body : Nat → α → M V α} {step : Nat → α → Option α}
    (hb : ∀ i a b, i < n → step i a = some b → Computes h1 g F (body i a) b)
    (hs : Boof.foldO n s0 step = some s) : Computes h1 g F (loopS n s0 body) s := by
  induction n generalizing s with
  | zero => exact Option.some.inj hs ▸ Computes.pure s0
  | succ n ih =>
    show Computes h1 g F (loopS n s0 body >>= body n) s
    unfold Boof.foldO at hs
    obtain ⟨a, ha, hb'⟩ := Option.bind_eq_some_iff.mp hs
    exact Computes.bind (ih (fun i a b hi => hb i a b (by omega)) ha) (hb n a s (by omega) hb')

theorem Computes.opt {α : Type} {o : Option α} {a : α} (e : o = some a) : Computes h1 g F (opt o) a := by
  subst e; exact Computes.pure a

theorem Computes.at1D {k : Kernel S} {w o : Nat} {c : Nat → S} (hk : k.Is1D w o c) {i : Nat} (hi : i < w) :
    Computes h1 g F (Kernel1D.at' k i) (c i) := Computes.of_const (Boof.at1D hk hi)

theorem Computes.get1D {k : Kernel S} {w o : Nat} {c : Nat → S} (hk : k.Is1D w o c) {i : Nat} (hi : i < w) :
    Computes h1 g F (k.get i) (c i) := Computes.of_const (Boof.get1D hk hi)

theorem Computes.at2D {k : Kernel S} {w o : Nat} {c : Nat → Nat → S} (hk : k.Is2D w o c) {x y : Nat} (hx : x < w)
    (hy : y < w) (hw : w * w < P32) : Computes h1 g F (Kernel2D.at' k x y) (c x y) :=
  Computes.of_const (Boof.at2D hk hw hx hy)

theorem Computes.get2D {k : Kernel S} {w o : Nat} {c : Nat → Nat → S} (hk : k.Is2D w o c) {x y i : Nat} (hx : x < w)
    (hy : y < w) (hi : i = y * w + x) : Computes h1 g F (k.get i) (c x y) :=
  Computes.of_const (fun _ => by subst hi; unfold Kernel.get; rw [hk.coef x y hx hy]; rfl)

/-- Reading image `a` through border `b` gives `p` on the given range of coordinates, while `g` is being written. -/
def View (h1 : Heap V) (g : Gray) (F : Nat → Nat → V) (b : Border V) (a : Gray) (p : Int → Int → V)
    (x0 x1 y0 y1 : Int) : Prop :=
  ∀ x y, 0 < a.width → 0 < a.height → x0 ≤ x → x < x1 → y0 ≤ y → y < y1 → Computes h1 g F (b.get a x y) (p x y)

theorem Border.get_ext {h : Heap V} {b : Border V} {a : Gray} {f : Nat → Nat → V} (hv : a.Valid h) (hf : a.Shows h f)
    (hw : 0 < a.width) (hh : 0 < a.height) (hw' : a.width < 2147483648) (hh' : a.height < 2147483648)
    {xb xa yb ya : Nat} (rx : b.Reach a.width xb xa) (ry : b.Reach a.height yb ya)
    {x y : Int} (sx : IsS32 x) (sy : IsS32 y) (x0 : -(xb : Int) ≤ x) (x1 : x < a.width + xa) (y0 : -(yb : Int) ≤ y)
    (y1 : y < a.height + ya) : b.get a x y h = .ok (b.ext a.width a.height f x y) h := by
  cases b with
  | extend =>
    obtain ⟨v, e, e'⟩ := C17_extended hv hw hh sx sy
    rw [hf _ _ (by unfold clampTo; omega) (by unfold clampTo; omega)] at e'
    rw [e, ← Option.some.inj e']; rfl
  | reflect =>
    unfold Border.Reach at rx ry
    simp only [] at rx ry
    obtain ⟨v, e, e'⟩ := C18_reflect_partial hv sx sy (by omega) (by omega) hw hh (by omega) (by omega) (by omega)
      (by omega)
    rw [hf _ _ (adjust_reflect (V := V) (h := h) sx hw hv.widthLt (by omega) (by omega) (by omega)).2
      (adjust_reflect (V := V) (h := h) sy hh hv.heightLt (by omega) (by omega) (by omega)).2] at e'
    rw [e, ← Option.some.inj e']; rfl
  | wrap =>
    unfold Border.Reach at rx ry
    simp only [] at rx ry
    obtain ⟨v, e, e'⟩ := C19_wrap_partial hv sx sy (by omega) (by omega) (by omega) (by omega)
    rw [hf _ _ (adjust_wrap (V := V) (h := h) sx hv.widthLt (by omega) (by omega)).2
      (adjust_wrap (V := V) (h := h) sy hv.heightLt (by omega) (by omega)).2] at e'
    rw [e, ← Option.some.inj e']; rfl
  | value c =>
    obtain ⟨e1, e2⟩ := C20_value hv c sx sy
    unfold Border.ext
    by_cases hc : 0 ≤ x ∧ x < a.width ∧ 0 ≤ y ∧ y < a.height
    · obtain ⟨v, e, e'⟩ := e1 hc.1 hc.2.1 hc.2.2.1 hc.2.2.2
      rw [hf _ _ (by omega) (by omega)] at e'
      rw [e, ← Option.some.inj e']
      simp only []
      rw [if_pos hc]
    · rw [e2 hc]
      simp only []
      rw [if_neg hc]

theorem Pixels.shows {a : Gray} {f : Nat → Nat → V} (ha : Pixels h1 g F a f) {P : Nat → Nat → Prop} {h2 : Heap V}
    (hp : Painted h1 h2 g (sel P F)) : a.Shows h2 f := by
  intro x y hx hy
  have := ha.read x y _ hx hy rfl P h2 hp
  unfold Heap.px
  unfold M.rd at this
  split at this
  · cases this; assumption
  · cases this

/-- The border extends the picture. -/
theorem Pixels.view {a : Gray} {f : Nat → Nat → V} (ha : Pixels h1 g F a f) (hv : g.Valid h1) {b : Border V}
    (hw : a.width < 2147483648) (hh : a.height < 2147483648) {xb xa yb ya : Nat} (rx : b.Reach a.width xb xa)
    (ry : b.Reach a.height yb ya) (b1 : xb < 2147483648) (b2 : a.width + xa ≤ 2147483648) (b3 : yb < 2147483648)
    (b4 : a.height + ya ≤ 2147483648) :
    View h1 g F b a (b.ext a.width a.height f) (-xb) (a.width + xa) (-yb) (a.height + ya) := by
  intro x y w0 h0 x0 x1 y0 y1 P h2 hp
  exact Border.get_ext (hp.valid hv ha.valid) (ha.shows hp) w0 h0 hw hh rx ry ⟨by omega, by omega⟩ ⟨by omega, by omega⟩
    x0 x1 y0 y1

theorem View.mono {b : Border V} {a : Gray} {p : Int → Int → V} {x0 x1 y0 y1 u0 u1 v0 v1 : Int}
    (hp : View h1 g F b a p x0 x1 y0 y1) (a1 : x0 ≤ u0) (a2 : u1 ≤ x1) (a3 : y0 ≤ v0) (a4 : v1 ≤ y1) :
    View h1 g F b a p u0 u1 v0 v1 :=
  fun x y w h e1 e2 e3 e4 => hp x y w h (by omega) (by omega) (by omega) (by omega)

/-- Inside the image the border shows the pixels. -/
theorem View.pixels {b : Border V} {a : Gray} {p : Int → Int → V} {x0 x1 y0 y1 : Int}
    (hp : View h1 g F b a p x0 x1 y0 y1) (hg : g.Valid h1) (ha : a.Valid h1) (hw : a.width ≤ 2147483648)
    (hh : a.height ≤ 2147483648) (e1 : x0 ≤ 0) (e2 : a.width ≤ x1) (e3 : y0 ≤ 0) (e4 : a.height ≤ y1) :
    Pixels h1 g F a (fun x y => p x y) := by
  refine ⟨ha, fun x y i hx hy hi P h2 hpt => ?_⟩
  have e := hp x y (by omega) (by omega) (by omega) (by omega) (by omega) (by omega) P h2 hpt
  obtain ⟨v, q1, q2⟩ := C20_inside (hpt.valid hg ha) b (x := x) (y := y) ⟨by omega, by omega⟩ ⟨by omega, by omega⟩
    (by omega) (by omega) (by omega) (by omega)
  rw [q1] at e
  cases e
  subst hi
  exact M.rd_run q2

theorem toS32_sub {x o k : Nat} (hx : x < 2147483648) (ho : o < 2147483648) (h : x + k < o + 2147483648) :
    toS32 (wrap32 (sub32 x o + k)) = (x : Int) + k - o := by
  unfold toS32 wrap32 sub32 P32; simp only []; split <;> omega

theorem toS32_add_sub {x o k : Nat} (hx : x < 2147483648) (ho : o < 2147483648) (h : x + k < o + 2147483648) :
    toS32 (sub32 (x + k) o) = (x : Int) + k - o := by
  unfold toS32 sub32 P32; simp only []; split <;> omega

section naive
variable {A : Arith V S} {fin : S → Option V} {k : Kernel S} {b : Border V} {a : Gray} {kw o : Nat} {p : Int → Int → V}

theorem Paints.setAt {x y : Nat} {v : V} (hv : g.Valid h1) (hx : x < g.width) (hy : y < g.height)
    (hvv : v = F x y) : Paints h1 g F (g.setAt x y v) (fun x' y' => x' = x ∧ y' = y) := by
  unfold Gray.setAt
  rw [if_neg (by omega), hv.index_eq hx hy]
  exact Paints.wr hv hx hy rfl hvv

theorem Paints.finish {m : M V S} {v : V} {fin : S → Option V} {k : V → M V Unit} {R : Nat → Nat → Prop}
    {o : Option S} (ho : o.bind fin = some v) (hm : ∀ s, o = some s → Computes h1 g F m s) (hk : Paints h1 g F (k v) R) :
    Paints h1 g F (do let s ← m; let v ← opt (fin s); k v) R := by
  obtain ⟨s, e1, e2⟩ := Option.bind_eq_some_iff.mp ho
  exact Paints.bind (hm s e1) (Paints.bind (Computes.opt e2) hk)

theorem naive_horizontal {c : Nat → S} (hv : g.Valid h1) (ew : g.width = a.width) (eh : g.height = a.height)
    (hk : k.Is1D kw o c) (ho : o < kw) (hw : a.width + kw ≤ 2147483648) (hh : a.height ≤ 2147483648)
    (hp : View h1 g F b a p (-o) (a.width + kw - 1 - o) 0 a.height)
    (hF : ∀ x y, x < a.width → y < a.height → (rowAt A kw o c p x y).bind fin = some (F x y)) :
    Paints h1 g F (ConvolveNaive.horizontal A fin k b a g) (fun _ _ => True) := by
  unfold ConvolveNaive.horizontal
  refine (Paints.loop2 (fun x y hx hy => ?_)).congr (fun x y _ _ => ⟨fun _ => trivial, fun _ => ⟨by omega, by omega⟩⟩)
  refine Paints.finish (hF x y hx hy) (fun s hs => ?_) (Paints.setAt hv (by omega) (by omega) rfl)
  rw [hk.width, hk.offset]
  refine Computes.foldO (fun i s s' hi e => ?_) hs
  rw [toS32_sub (by omega) (by omega) (by omega), toS32_of_lt (by omega)]
  refine Computes.bind (Computes.at1D hk hi) (Computes.bind (hp _ _ ?_ ?_ ?_ ?_ ?_ ?_) (Computes.opt e)) <;> omega

theorem naive_vertical {c : Nat → S} (hv : g.Valid h1) (ew : g.width = a.width) (eh : g.height = a.height)
    (hk : k.Is1D kw o c) (ho : o < kw) (hh : a.height + kw ≤ 2147483648) (hw : a.width ≤ 2147483648)
    (hp : View h1 g F b a p 0 a.width (-o) (a.height + kw - 1 - o))
    (hF : ∀ x y, x < a.width → y < a.height → (colAt A kw o c p x y).bind fin = some (F x y)) :
    Paints h1 g F (ConvolveNaive.vertical A fin k b a g) (fun _ _ => True) := by
  unfold ConvolveNaive.vertical
  refine (Paints.loop2 (fun x y hx hy => ?_)).congr (fun x y _ _ => ⟨fun _ => trivial, fun _ => ⟨by omega, by omega⟩⟩)
  refine Paints.finish (hF x y hx hy) (fun s hs => ?_) (Paints.setAt hv (by omega) (by omega) rfl)
  rw [hk.width, hk.offset]
  refine Computes.foldO (fun i s s' hi e => ?_) hs
  rw [toS32_sub (by omega) (by omega) (by omega), toS32_of_lt (by omega)]
  refine Computes.bind (Computes.at1D hk hi) (Computes.bind (hp _ _ ?_ ?_ ?_ ?_ ?_ ?_) (Computes.opt e)) <;> omega

theorem naive_convolve {c : Nat → Nat → S} (hv : g.Valid h1) (ew : g.width = a.width) (eh : g.height = a.height)
    (hk : k.Is2D kw o c) (ho : o < kw) (hkw : kw * kw < P32) (hh : a.height + kw ≤ 2147483648)
    (hw : a.width + kw ≤ 2147483648)
    (hp : View h1 g F b a p (-o) (a.width + kw - 1 - o) (-o) (a.height + kw - 1 - o))
    (hF : ∀ x y, x < a.width → y < a.height → (boxAt A kw o c p x y).bind fin = some (F x y)) :
    Paints h1 g F (ConvolveNaive.convolve A fin k b a g) (fun _ _ => True) := by
  unfold ConvolveNaive.convolve
  refine (Paints.loop2 (fun x y hx hy => ?_)).congr (fun x y _ _ => ⟨fun _ => trivial, fun _ => ⟨by omega, by omega⟩⟩)
  refine Paints.finish (hF x y hx hy) (fun s hs => ?_) (Paints.setAt hv (by omega) (by omega) rfl)
  rw [hk.width, hk.offset]
  refine Computes.foldO (fun j s s' hj e => ?_) hs
  rw [toS32_sub (by omega) (by omega) (by omega)]
  refine Computes.foldO (fun i s s' hi e => ?_) e
  rw [toS32_sub (by omega) (by omega) (by omega)]
  refine Computes.bind (Computes.at2D hk hi hj hkw) (Computes.bind (hp _ _ ?_ ?_ ?_ ?_ ?_ ?_) (Computes.opt e)) <;> omega

end naive
end Boof
