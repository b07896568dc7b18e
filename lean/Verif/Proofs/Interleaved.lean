import Verif.Proofs.ImageOps
/-
An interleaved image is a grayscale image of `width*bands` columns.
-/
namespace Boof
variable {V : Type}

/-- The grayscale view of an interleaved image. -/
def Interleaved.flat (g : Interleaved) : Gray :=
  { buf := g.buf, dataLength := g.dataLength, width := g.width * g.numBands, height := g.height,
    offset := g.offset, stride := g.stride, subimage := g.subimage }

theorem band_lt {x w b nb : Nat} (hx : x < w) (hb : b < nb) : x * nb + b < w * nb := by
  have := Nat.mul_le_mul_right nb (Nat.succ_le_of_lt hx)
  rw [Nat.succ_mul] at this; omega

theorem band_split {c w nb : Nat} (hc : c < w * nb) : c / nb < w ∧ c % nb < nb ∧ c / nb * nb + c % nb = c := by
  have hnb : 0 < nb := by
    rcases Nat.eq_zero_or_pos nb with h | h
    · subst h; simp at hc
    · exact h
  refine ⟨Nat.div_lt_of_lt_mul (by rw [Nat.mul_comm]; exact hc), Nat.mod_lt _ hnb, ?_⟩
  rw [Nat.mul_comm]; exact Nat.div_add_mod c nb

theorem Interleaved.addr_flat (g : Interleaved) (x y b : Nat) :
    g.addr x y b = g.flat.addr (x * g.numBands + b) y := by
  simp only [Interleaved.addr, Gray.addr, Interleaved.flat]; omega

theorem Heap.px3_flat (h : Heap V) (g : Interleaved) (x y b : Nat) :
    h.px3 g x y b = h.px g.flat (x * g.numBands + b) y := by
  unfold Heap.px3 Heap.px; rw [g.addr_flat]; rfl

theorem Interleaved.area_lt {w ht nb : Nat} (h0 : 0 < ht) (ha : w * ht * nb < P32) : w * nb < P32 := by
  have : w * nb ≤ w * ht * nb := by
    rw [Nat.mul_right_comm]; exact Nat.le_mul_of_pos_right _ h0
  omega

/-- `Valid` for the flat view, of the record seen as a grayscale image. -/
theorem Interleaved.Valid.flat {h : Heap V} {g : Interleaved} (hv : g.Valid h) : g.flat.Valid h :=
  ⟨hv.live, hv.cells, hv.lenLt, Nat.lt_of_le_of_lt hv.rowLe hv.strideLt, hv.heightLt, hv.rowLe, hv.fits, hv.owner⟩

theorem Interleaved.Valid.addr_lt {h : Heap V} {g : Interleaved} (hv : g.Valid h) {x y b : Nat}
    (hx : x < g.width) (hy : y < g.height) (hb : b < g.numBands) : g.addr x y b < g.dataLength := by
  rw [g.addr_flat]
  exact hv.flat.addr_lt (band_lt hx hb) hy

theorem Interleaved.Valid.index_eq {h : Heap V} {g : Interleaved} (hv : g.Valid h) {x y b : Nat}
    (hx : x < g.width) (hy : y < g.height) (hb : b < g.numBands) : g.indexOf x y b = g.addr x y b :=
  wrap32_of_lt (Nat.lt_trans (hv.addr_lt hx hy hb) hv.lenLt)

theorem Interleaved.Valid.addr_inj {h : Heap V} {g : Interleaved} (hv : g.Valid h) {x y b x' y' b' : Nat}
    (hx : x < g.width) (hb : b < g.numBands) (hx' : x' < g.width) (hb' : b' < g.numBands) (hy : y < g.height)
    (e : g.addr x y b = g.addr x' y' b') : x = x' ∧ y = y' ∧ b = b' := by
  rw [g.addr_flat, g.addr_flat] at e
  obtain ⟨e1, e2⟩ := hv.flat.addr_inj (band_lt hx hb) (band_lt hx' hb') e
  obtain ⟨e3, e4⟩ := addr_inj_aux hb hb' e1
  exact ⟨e4, e2, e3⟩

theorem Interleaved.Valid.px_some {h : Heap V} {g : Interleaved} (hv : g.Valid h) {x y b : Nat}
    (hx : x < g.width) (hy : y < g.height) (hb : b < g.numBands) : ∃ v, h.px3 g x y b = some v :=
  hv.cells _ (hv.addr_lt hx hy hb)

theorem Interleaved.Valid.lt_next {h : Heap V} {g : Interleaved} (hv : g.Valid h) : g.buf < h.next := by
  obtain ⟨l, e⟩ := Option.isSome_iff_exists.mp hv.live
  exact Heap.lt_next_of_get e

theorem Painted.to3 {h h' : Heap V} {g : Interleaved} {f : Nat → Nat → Option V}
    (hp : Painted h h' g.flat f) : Painted3 h h' g (fun x y b => f (x * g.numBands + b) y) := by
  refine ⟨?_, ?_⟩
  · intro x y b hx hy hb
    rw [h.px3_flat, h'.px3_flat]
    exact hp.pix _ _ (band_lt hx hb) hy
  · intro b i hb
    refine hp.frame b i ?_
    intro c y hc hy ⟨e1, e2⟩
    obtain ⟨h1, h2, h3⟩ := band_split hc
    refine hb (c / g.numBands) y (c % g.numBands) h1 hy h2 ⟨e1, ?_⟩
    rw [g.addr_flat, h3]; exact e2

theorem Painted3.congr {h h' : Heap V} {g : Interleaved} {f f' : Nat → Nat → Nat → Option V}
    (hp : Painted3 h h' g f)
    (e : ∀ x y b, x < g.width → y < g.height → b < g.numBands → f x y b = f' x y b) : Painted3 h h' g f' :=
  ⟨fun x y b hx hy hb => by rw [← e x y b hx hy hb]; exact hp.pix x y b hx hy hb, hp.frame⟩

/-- The owner's array, without any claim on the current shape. -/
structure Interleaved.Owns (h : Heap V) (g : Interleaved) : Prop where
  live : (h.get g.buf).isSome
  cells : ∀ i, i < g.dataLength → ∃ v, h.cell g.buf i = some v
  lenLt : g.dataLength < P32
  sub : g.subimage = false
  off : g.offset = 0

/-- What `ensure` does. -/
structure Ensured (h h' : Heap V) (g g' : Interleaved) (len : Nat) : Prop where
  owns : g'.Owns h'
  enough : len ≤ g'.dataLength
  shape : g'.width = g.width ∧ g'.height = g.height ∧ g'.numBands = g.numBands ∧ g'.stride = g.stride
  frame : ∀ b i, b ≠ g.buf → b < h.next → h'.cell b i = h.cell b i
  alive : ∀ b, b ≠ g.buf → b < h.next → (h'.get b).isSome = (h.get b).isSome
  buf : (g'.buf = g.buf ∧ h' = h) ∨ (g'.buf = h.next ∧ h.next < h'.next)
  fresh : g.dataLength < len → ∀ i, i < len → ∃ v, h'.cell g'.buf i = some v
  only : ∀ b, h.next ≤ b → (h'.get b).isSome → b = g'.buf
  gone : g'.buf ≠ g.buf → h'.get g.buf = none

theorem Heap.not_live {h : Heap V} {b : Nat} (hb : h.next ≤ b) : ¬(h.get b).isSome := by
  intro e
  obtain ⟨l, hl⟩ := Option.isSome_iff_exists.mp e
  have := Heap.lt_next_of_get hl
  omega

theorem ensure_spec {h : Heap V} (z : V) {g : Interleaved} (ho : g.Owns h) {len : Nat} (hl : len < P32) :
    Spec (g.ensure z len) h (fun g' h' => Ensured h h' g g' len) := by
  unfold Interleaved.ensure
  by_cases hd : len > g.dataLength
  · rw [if_pos hd]
    obtain ⟨l, el⟩ := Option.isSome_iff_exists.mp ho.live
    refine Spec.bind_eq (a := ()) (h' := h.free g.buf) (by simp [M.delArr, el]) ?_
    refine Spec.bind_eq (a := h.next) (h' := (h.free g.buf).alloc (List.replicate len z))
      (by simp [M.newArr, Heap.next_free]) ?_
    have hc : ∀ i, i < len → ∃ v, ((h.free g.buf).alloc (List.replicate len z)).cell h.next i = some v := by
      intro i hi
      exact ⟨z, by rw [Heap.cell_alloc, Heap.next_free, if_pos rfl, List.getElem?_replicate, if_pos hi]⟩
    refine Spec.pure ⟨⟨?_, hc, hl, ho.sub, ho.off⟩, Nat.le_refl _, ⟨rfl, rfl, rfl, rfl⟩, ?_, ?_,
      Or.inr ⟨rfl, ?_⟩, fun _ => hc, ?_, ?_⟩
    · simp [Heap.get_alloc, Heap.next_free]
    · intro b i hb hlt
      rw [Heap.cell_alloc, Heap.next_free, if_neg (by omega), Heap.cell_free, if_neg hb]
    · intro b hb hlt
      rw [Heap.get_alloc, Heap.next_free, if_neg (by omega), Heap.get_free, if_neg hb]
    · rw [Heap.next_alloc, Heap.next_free]; omega
    · intro b hb hl
      show b = h.next
      have hn : ((h.free g.buf).alloc (List.replicate len z)).next = h.next + 1 := by rw [Heap.next_alloc, Heap.next_free]
      by_cases c : b = h.next
      · exact c
      · exact absurd hl (Heap.not_live (by omega))
    · intro _
      have := Heap.lt_next_of_get el
      rw [Heap.get_alloc, Heap.next_free, if_neg (by omega), Heap.get_free, if_pos rfl]
  · rw [if_neg hd]
    exact Spec.pure ⟨ho, by omega, ⟨rfl, rfl, rfl, rfl⟩, fun _ _ _ _ => rfl, fun _ _ _ => rfl,
      Or.inl ⟨rfl, rfl⟩, fun h => absurd h hd, fun b hb hl => absurd hl (Heap.not_live hb), fun c => absurd rfl c⟩

theorem Interleaved.Valid.owns {h : Heap V} {g : Interleaved} (hv : g.Valid h) (hs : g.subimage = false) :
    g.Owns h := ⟨hv.live, hv.cells, hv.lenLt, hs, (hv.owner hs).1⟩

theorem rows_fit {w ht y : Nat} (hy : y < ht) : y * w + w ≤ w * ht := by
  have := Nat.mul_le_mul_right w (Nat.succ_le_of_lt hy)
  rw [Nat.succ_mul, Nat.mul_comm ht w] at this
  omega

/-- An owner with enough room whose shape members are set to `w,ht,nb` is valid. -/
theorem Interleaved.Owns.valid {h : Heap V} {g : Interleaved} (ho : g.Owns h)
    (hw : g.width < P32) (hh : g.height < P32) (hb : g.numBands < P32)
    (hst : g.stride = g.width * g.numBands) (hsl : g.width * g.numBands < P32) (hlen : g.width * g.height * g.numBands ≤ g.dataLength) :
    g.Valid h := by
  refine ⟨ho.live, ho.cells, ho.lenLt, hw, hh, hb, by omega, by omega, ?_, fun _ => ⟨ho.off, hst⟩⟩
  intro y hy
  have := rows_fit (w := g.width * g.numBands) hy
  rw [Nat.mul_right_comm] at this
  rw [ho.off, hst]; omega


theorem Ensured.reshaped {h h' : Heap V} {g g1 g' : Interleaved} {len w ht nb : Nat}
    (he : Ensured h h' g g1 len) (hlen : w * ht * nb ≤ len) (hs : g.subimage = false)
    (e : g' = { g1 with width := w, height := ht, numBands := nb, stride := w * nb })
    (hw : w < P32) (hh : ht < P32) (hb : nb < P32) (hr : w * nb < P32)
    (hne : ¬(g.width = w ∧ g.height = ht ∧ g.numBands = nb)) : Reshaped3 h h' g g' w ht nb := by
  subst e
  have ho := he.owns
  have hlen' := he.enough
  refine ⟨⟨rfl, rfl, rfl⟩, ?_, ?_, he.frame, he.alive, ?_, ?_, fun a b c => absurd ⟨a, b, c⟩ hne, he.only, he.gone⟩
  · refine Interleaved.Owns.valid ⟨ho.live, ho.cells, ho.lenLt, ho.sub, ho.off⟩ hw hh hb rfl hr ?_
    exact Nat.le_trans hlen hlen'
  · rw [hs]; exact ho.sub
  · rcases he.buf with h1 | h1
    · exact Or.inl h1
    · exact Or.inr (by simp only [h1.1]; omega)
  · rcases he.buf with h1 | h1
    · rw [h1.2]; exact Nat.le_refl _
    · omega

theorem Reshaped3.rfl' {h : Heap V} {g : Interleaved} (hv : g.Valid h) :
    Reshaped3 h h g g g.width g.height g.numBands :=
  ⟨⟨rfl, rfl, rfl⟩, hv, rfl, fun _ _ _ _ => rfl, fun _ _ _ => rfl, Or.inl ⟨rfl, rfl⟩, Nat.le_refl _,
    fun _ _ _ => ⟨rfl, rfl⟩, fun _ hb hl => absurd hl (Heap.not_live hb), fun c => absurd rfl c⟩

theorem Interleaved.CanBe.owner {g : Interleaved} {w ht nb : Nat} (hc : g.CanBe w ht nb)
    (hne : ¬(g.width = w ∧ g.height = ht ∧ g.numBands = nb)) : g.subimage = false := by
  rcases hc with h | h
  · exact h
  · exact absurd h hne

theorem reshape3_spec {h : Heap V} (z : V) {g : Interleaved} {w ht nb : Nat} (hv : g.Valid h)
    (hw : w < P32) (hh : ht < P32) (hb : nb < P32) (hr : w * nb < P32) (ha : w * ht * nb < P32)
    (hc : g.CanBe w ht nb) :
    Spec (g.reshape3 z w ht nb) h (fun g' h' => Reshaped3 h h' g g' w ht nb) := by
  unfold Interleaved.reshape3
  by_cases e : g.width = w ∧ g.height = ht ∧ g.numBands = nb
  · rw [if_pos e]
    obtain ⟨rfl, rfl, rfl⟩ := e
    exact Spec.pure (Reshaped3.rfl' hv)
  · have hs := hc.owner e
    rw [if_neg e]
    simp only [hs, Bool.false_eq_true, if_false]
    rw [wrap32_of_lt ha, wrap32_of_lt hr]
    refine Spec.bind (ensure_spec z (hv.owns hs) ha) ?_
    intro g1 h1 he
    exact Spec.pure (he.reshaped (Nat.le_refl _) hs rfl hw hh hb hr e)

theorem reshape_spec3 {h : Heap V} (z : V) {g : Interleaved} {w ht : Nat} (hv : g.Valid h)
    (hw : w < P32) (hh : ht < P32) (hr : w * g.numBands < P32) (ha : w * ht * g.numBands < P32)
    (hc : g.CanBe w ht g.numBands) :
    Spec (g.reshape z w ht) h (fun g' h' => Reshaped3 h h' g g' w ht g.numBands) := by
  unfold Interleaved.reshape
  by_cases e : g.width = w ∧ g.height = ht
  · rw [if_pos e]
    obtain ⟨rfl, rfl⟩ := e
    exact Spec.pure (Reshaped3.rfl' hv)
  · have e' : ¬(g.width = w ∧ g.height = ht ∧ g.numBands = g.numBands) := fun x => e ⟨x.1, x.2.1⟩
    have hs := hc.owner e'
    rw [if_neg e]
    simp only [hs, Bool.false_eq_true, if_false]
    rw [wrap32_of_lt ha]
    refine Spec.bind (ensure_spec z (hv.owns hs) ha) ?_
    intro g1 h1 he
    refine Spec.pure (he.reshaped (Nat.le_refl _) hs ?_ hw hh hv.bandsLt hr e')
    rw [he.shape.2.2.1, wrap32_of_lt hr]

theorem bands_spec {h : Heap V} (z : V) {g : Interleaved} {nb : Nat} (hv : g.Valid h)
    (hb : nb < P32) (hr : g.width * nb < P32) (ha : g.width * g.height * nb < P32)
    (hc : g.CanBe g.width g.height nb) :
    Spec (g.setNumberOfBands z nb) h (fun g' h' => Reshaped3 h h' g g' g.width g.height nb) := by
  unfold Interleaved.setNumberOfBands
  by_cases e : g.numBands = nb
  · rw [if_pos e]
    subst e
    exact Spec.pure (Reshaped3.rfl' hv)
  · have e' : ¬(g.width = g.width ∧ g.height = g.height ∧ g.numBands = nb) := fun x => e x.2.2
    have hs := hc.owner e'
    rw [if_neg e]
    simp only [hs, Bool.false_eq_true, if_false]
    rw [wrap32_of_lt ha]
    refine Spec.bind (ensure_spec z (hv.owns hs) ha) ?_
    intro g1 h1 he
    refine Spec.pure (he.reshaped (Nat.le_refl _) hs ?_ hv.widthLt hv.heightLt hb hr e')
    rw [he.shape.1, he.shape.2.1, wrap32_of_lt hr]

/-- The two steps by which `setTo` changes the shape; the intermediate shape need not be representable. -/
theorem setTo_shape {h : Heap V} (z : V) {g : Interleaved} {w ht nb : Nat} (hv : g.Valid h)
    (hw : w < P32) (hh : ht < P32) (hb : nb < P32) (hr : w * nb < P32) (ha : w * ht * nb < P32)
    (hc : g.CanBe w ht nb) :
    Spec (g.setNumberOfBands z nb >>= fun g => g.reshape z w ht) h
      (fun g' h' => Reshaped3 h h' g g' w ht nb) := by
  by_cases e : g.width = w ∧ g.height = ht ∧ g.numBands = nb
  · refine Spec.bind_eq (a := g) (h' := h) (by simp only [Interleaved.setNumberOfBands, e.2.2, if_true]; rfl) ?_
    simp only [Interleaved.reshape, e.1, e.2.1, and_self, if_true]
    have := Reshaped3.rfl' hv
    rw [e.1, e.2.1, e.2.2] at this
    exact Spec.pure this
  · have hs := hc.owner e
    by_cases hwh : g.width = w ∧ g.height = ht
    · obtain ⟨rfl, rfl⟩ := hwh
      refine Spec.bind (bands_spec z hv hb hr ha (Or.inl hs)) ?_
      intro g1 h1 hr1
      simp only [Interleaved.reshape, hr1.shape.1, hr1.shape.2.1, and_self, if_true]
      exact Spec.pure hr1
    · -- the second step sets the whole shape
      refine Spec.bind (P := fun g1 h1 => ∃ len, Ensured h h1 g { g1 with
          width := g.width, numBands := g.numBands, stride := g.stride } len ∧
          g1.numBands = nb ∧ g1.width = g.width) ?_ ?_
      · unfold Interleaved.setNumberOfBands
        by_cases e2 : g.numBands = nb
        · rw [if_pos e2]
          refine Spec.pure ⟨0, ⟨hv.owns hs, by omega, ⟨rfl, rfl, rfl, rfl⟩, fun _ _ _ _ => rfl, fun _ _ _ => rfl,
            Or.inl ⟨rfl, rfl⟩, fun h => by omega, fun b hb hl => absurd hl (Heap.not_live hb), fun c => absurd rfl c⟩, e2, rfl⟩
        · rw [if_neg e2]
          simp only [hs, Bool.false_eq_true, if_false]
          refine Spec.bind (ensure_spec z (hv.owns hs) (Nat.mod_lt _ (by decide))) ?_
          intro g1 h1 he
          refine Spec.pure ⟨wrap32 (g.width * g.height * nb), ?_, rfl, he.shape.1⟩
          have e3 := he.shape
          have : ({ g1 with width := g.width, numBands := g.numBands, stride := g.stride } : Interleaved) = g1 := by
            rw [← e3.1, ← e3.2.2.1, ← e3.2.2.2]
          simp only [this]; exact he
      · rintro g1 h1 ⟨len, he, en, ew⟩
        have ho : g1.Owns h1 := ⟨he.owns.live, he.owns.cells, he.owns.lenLt, he.owns.sub, he.owns.off⟩
        have eh : g1.height = g.height := he.shape.2.1
        unfold Interleaved.reshape
        rw [if_neg (by rw [ew, eh]; exact hwh)]
        have hs1 : g1.subimage = false := ho.sub
        simp only [hs1, Bool.false_eq_true, if_false]
        rw [en, wrap32_of_lt ha]
        refine Spec.bind (ensure_spec z ho ha) ?_
        intro g2 h2 he2
        have r := he2.reshaped (Nat.le_refl _) hs1 (g' := { g2 with width := w, height := ht, numBands := nb, stride := w * nb })
          rfl hw hh hb hr (by rw [ew, eh]; exact fun x => hwh ⟨x.1, x.2.1⟩)
        have e4 : ({ g2 with width := w, height := ht, stride := wrap32 (w * g2.numBands) } : Interleaved) =
            { g2 with width := w, height := ht, numBands := nb, stride := w * nb } := by
          rw [he2.shape.2.2.1, en, wrap32_of_lt hr, ← en, ← he2.shape.2.2.1]
        refine Spec.pure ?_
        rw [e4]
        have nle : h.next ≤ h1.next := by
          rcases he.buf with q | q
          · rw [q.2]; exact Nat.le_refl _
          · omega
        have hbuf : g1.buf = g.buf ∧ h1 = h ∨ g1.buf = h.next ∧ h.next < h1.next := he.buf
        have hglt := hv.lt_next
        refine ⟨r.shape, r.valid, ?_, ?_, ?_, ?_, Nat.le_trans nle r.nextLe, fun a b c => absurd ⟨a, b, c⟩ e, ?_, ?_⟩
        · rw [r.sub, hs1, hs]
        · intro b i hb' hlt
          have : b ≠ g1.buf := by rcases hbuf with q | q <;> omega
          rw [r.frame b i this (by omega), he.frame b i hb' hlt]
        · intro b hb' hlt
          have : b ≠ g1.buf := by rcases hbuf with q | q <;> omega
          rw [r.alive b this (by omega), he.alive b hb' hlt]
        · rcases r.buf with q | q
          · rcases hbuf with q' | q'
            · exact Or.inl ⟨q.1.trans q'.1, q.2.trans q'.2⟩
            · exact Or.inr (by rw [q.1, q'.1]; exact Nat.le_refl _)
          · exact Or.inr (by omega)
        · intro b hb hl
          by_cases c : h1.next ≤ b
          · exact r.fresh b c hl
          · by_cases d : b = g1.buf
            · by_cases q : ({ g2 with width := w, height := ht, numBands := nb, stride := w * nb } : Interleaved).buf = g1.buf
              · rw [d, q]
              · rw [d, r.released q] at hl; cases hl
            · exact absurd (he.only b hb (by rw [← r.alive b d (by omega)]; exact hl)) d
        · intro q
          by_cases d : g1.buf = g.buf
          · rw [← d] at q ⊢; exact r.released q
          · have h0 : h1.get g.buf = none := he.gone d
            have := r.alive g.buf (Ne.symm d) (by omega)
            rw [h0] at this
            cases e : h2.get g.buf with
            | none => rfl
            | some l => rw [e] at this; cases this

/-- `src` can be read while `dst` becomes `src`'s shape. -/
def Interleaved.Sep (src dst : Interleaved) : Prop :=
  src.buf ≠ dst.buf ∨
    (dst.width = src.width ∧ dst.height = src.height ∧ dst.numBands = src.numBands ∧ src.Disjoint dst)

theorem Interleaved.Disjoint.flat {a b : Interleaved} (hd : a.Disjoint b) : a.flat.Disjoint b.flat := by
  intro x y x' y' hx hy hx' hy' eb
  obtain ⟨h1, h2, h3⟩ := band_split (w := a.width) (nb := a.numBands) (c := x) hx
  obtain ⟨k1, k2, k3⟩ := band_split (w := b.width) (nb := b.numBands) (c := x') hx'
  have := hd _ y _ _ y' _ h1 hy h2 k1 hy' k2 eb
  rw [a.addr_flat, b.addr_flat, h3, k3] at this
  exact this

theorem Reshaped3.input {h h1 : Heap V} {g g' a : Interleaved} {w ht nb : Nat}
    (hr : Reshaped3 h h1 g g' w ht nb) (ha : a.Valid h) (hs : a.buf ≠ g.buf ∨
      (g.width = w ∧ g.height = ht ∧ g.numBands = nb ∧ a.Disjoint g)) :
    a.Valid h1 ∧ (∀ x y b, h1.px3 a x y b = h.px3 a x y b) ∧ a.Disjoint g' := by
  rcases hs with hne | ⟨ew, eh, eb, hd⟩
  · refine ⟨{ ha with live := ?_, cells := ?_ }, fun x y b => hr.frame _ _ hne ha.lt_next, ?_⟩
    · rw [hr.alive _ hne ha.lt_next]; exact ha.live
    · intro i hi; rw [hr.frame _ _ hne ha.lt_next]; exact ha.cells i hi
    · intro x y k x' y' k' _ _ _ _ _ _ eb
      rcases hr.buf with ⟨e, _⟩ | e
      · exact absurd (eb.trans e) hne
      · have := ha.lt_next; omega
  · obtain ⟨e1, e2⟩ := hr.same ew eh eb
    subst e1; subst e2
    exact ⟨ha, fun _ _ _ => rfl, hd⟩

theorem setTo_rows {h : Heap V} {g src : Interleaved} {f : Nat → Nat → Nat → V} (splice : Nat → V → V → V)
    (hv : g.Valid h) (hs : src.Valid h) (hd : src.Disjoint g) (hw : g.width = src.width)
    (hh : g.height = src.height) (hb : g.numBands = src.numBands) (hf : src.Shows h f) :
    Spec (M.loop g.height (fun y =>
      Interleaved.memcpyBytes 1 splice g.buf (g.offset + wrap32 (y * g.stride)) src.buf
        (src.offset + wrap32 (y * src.stride)) (wrap32 (src.width * g.numBands)))) h
      (fun _ h2 => Painted h h2 g.flat (fun c y => some (f (c / g.numBands) y (c % g.numBands)))) := by
  refine Spec.conseq (Spec.loop (fun y h2 => Painted h h2 g.flat
    (upto (fun c y => f (c / g.numBands) y (c % g.numBands)) y 0))
        ((Painted.refl h g.flat).congr (fun x y _ _ => by simp [upto])) ?_) ?_
  · intro y h2 hy hp
    have hrow := hv.flat.rowEnd_lt (y := y) hy
    have hrow' := hs.flat.rowEnd_lt (y := y) (by simp only [Interleaved.flat]; omega)
    simp only [Interleaved.flat] at hrow hrow'
    have hm : Spec (memcpy g.flat.buf (wrap32 (g.flat.offset + y * g.flat.stride)) src.flat.buf
        (wrap32 (src.flat.offset + y * src.flat.stride)) src.flat.width) h2
      (fun _ h2 => Painted h h2 g.flat (upto (fun c y => f (c / g.numBands) y (c % g.numBands)) y g.flat.width)) := by
      refine memcpy_row hv.flat hs.flat hd.flat ?_ hh ?_ hy hp
      · simp only [Interleaved.flat, hw, hb]
      · intro c y hc hy'
        obtain ⟨h1, h2', h3⟩ := band_split (w := src.width) (nb := src.numBands) (c := c) hc
        have := hf (c / src.numBands) y (c % src.numBands) h1 hy' h2'
        rw [h.px3_flat, h3] at this
        rw [this, hb]
    refine Spec.bind (P := fun _ h2 => Painted h h2 g.flat
      (upto (fun c y => f (c / g.numBands) y (c % g.numBands)) y g.flat.width)) ?_ ?_
    · rw [wrap32_of_lt, wrap32_of_lt] at hm
      · rw [wrap32_of_lt, wrap32_of_lt, wrap32_of_lt, hb]
        · simpa only [Nat.div_one, Interleaved.flat, hb] using hm
        all_goals first | (rw [hb]; omega) | omega
      all_goals (simp only [Interleaved.flat]; omega)
    · intro _ h3 hp3
      simp only [Nat.mod_one, if_true]
      refine Spec.pure (hp3.congr ?_)
      intro x' y' hx' hy'
      unfold upto
      by_cases e : y' < y + 1
      · rw [if_pos (by omega), if_pos (by omega)]
      · rw [if_neg (by omega), if_neg (by omega)]
  · intro _ h2 hp2
    refine hp2.congr ?_
    intro x' y' hx' hy'
    unfold upto
    exact if_pos (Or.inl hy')

theorem Interleaved.Valid.area_lt {h : Heap V} {g : Interleaved} (hv : g.Valid h) :
    g.width * g.height * g.numBands < P32 := by
  have := hv.flat.area_lt
  simp only [Interleaved.flat] at this
  rw [Nat.mul_right_comm]; exact this

/-- Validity can be decided, which the examples use. -/
instance (h : Heap V) (g : Interleaved) : Decidable (g.Valid h) :=
  decidable_of_iff
    ((h.get g.buf).isSome = true ∧ (∀ i, i < g.dataLength → (h.cell g.buf i).isSome = true) ∧
      g.dataLength < P32 ∧ g.width < P32 ∧ g.height < P32 ∧ g.numBands < P32 ∧ g.stride < P32 ∧
      g.width * g.numBands ≤ g.stride ∧
      (∀ y, y < g.height → g.offset + y * g.stride + g.width * g.numBands ≤ g.dataLength) ∧
      (g.subimage = false → g.offset = 0 ∧ g.stride = g.width * g.numBands))
    ⟨fun ⟨a, b, c, d, e, f, k, l, m, n⟩ =>
       ⟨a, fun i hi => Option.isSome_iff_exists.mp (b i hi), c, d, e, f, k, l, m, n⟩,
     fun hv => ⟨hv.live, fun i hi => Option.isSome_iff_exists.mpr (hv.cells i hi), hv.lenLt, hv.widthLt,
       hv.heightLt, hv.bandsLt, hv.strideLt, hv.rowLe, hv.fits, hv.owner⟩⟩

end Boof
