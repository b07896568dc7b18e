import Verif.Proofs.Planar
import Verif.Props.Images
import Verif.Props.Memory
/-
C73: a planar image is a set of independent bands of one size.
-/
namespace Boof
variable {V : Type}
open M

/-- A new planar image has the requested number of bands, each a zero image of the requested size in an array of its own,
and leaves other arrays alone. -/
theorem C73_new (z : V) (h : Heap V) {w ht n : Nat} (hw : w < P32) (hh : ht < P32) (ha : w * ht < P32) :
    ∃ p h', Planar.new z w ht n h = .ok p h' ∧ p.Valid h' ∧ p.bands.length = n ∧ p.width = w ∧ p.height = ht ∧ p.stride = w ∧ p.offset = 0 ∧
      (∀ (i : Nat) (g : Gray), p.bands[i]? = some g → g.Shows h' (fun _ _ => z)) ∧
      (∀ b, p.Uses b → h.next ≤ b) ∧ (∀ b i, b < h.next → h'.cell b i = h.cell b i) ∧
      (∀ b, b < h.next → (h'.get b).isSome = (h.get b).isSome) ∧ (∀ b, h.next ≤ b → (h'.get b).isSome → p.Uses b) := by
  obtain ⟨bs, h', e, el, ok, hg, _, hf, hal, hfr⟩ := newBands_run z hw hh ha n h
  refine ⟨⟨bs, w, ht, 0, w, false⟩, h', (M.bind_ok e).trans rfl, BandsOk.planar.mpr ⟨ok, rfl⟩, el, rfl, rfl, rfl, rfl, ?_, ?_, hf, hal, ?_⟩
  · exact fun i g e => (hg g (List.mem_of_getElem? e)).2
  · rintro b ⟨i, g, e, rfl⟩
    exact (hg g (List.mem_of_getElem? e)).1
  · intro b hb hl
    exact Planar.uses_iff.mpr (hfr b hb hl)

/-- Reshaping gives every band the new size, keeps the bands apart, and touches no other array. -/
theorem C73_reshape (z : V) {h : Heap V} {p : Planar} (hv : p.Valid h) {w ht : Nat} (hw : w < P32) (hh : ht < P32)
    (ha : w * ht < P32) : ∃ p' h', p.reshape z w ht h = .ok p' h' ∧ PlanarReshaped h h' p p' w ht := by
  obtain ⟨ok, hs⟩ := BandsOk.planar.mp hv
  obtain ⟨bs, h', e, el, ok2, _, hf, hal, hfr, hrl, hmn, hsm⟩ := reshapeBands_run z hw hh ha p.bands h ok
  refine ⟨⟨bs, w, ht, p.offset, w, p.subimage⟩, h', ?_, rfl, rfl, rfl, BandsOk.planar.mpr ⟨ok2, hs⟩, el, ?_, ?_, ?_, ?_, ?_, hsm⟩
  · unfold Planar.reshape
    rw [if_neg (by rw [hs]; simp)]
    exact (M.bind_ok e).trans rfl
  · exact fun b i hb => hf b i (fun c => hb (Planar.uses_iff.mpr c))
  · exact fun b hb => hal b (fun c => hb (Planar.uses_iff.mpr c))
  · exact fun b hb hl => Planar.uses_iff.mpr (hfr b hb hl)
  · exact fun b hb hn => hrl b (Planar.uses_iff.mp hb) (fun c => hn (Planar.uses_iff.mpr c))
  · intro b hb
    rcases hmn b (Planar.uses_iff.mp hb) with c | c
    · exact Or.inl (Planar.uses_iff.mpr c)
    · exact Or.inr c

/-- A sub-image refuses every new shape, and nothing changes. -/
theorem C73_reshape_subimage (z : V) (h : Heap V) {p : Planar} (hp : p.subimage = true) (w ht : Nat) :
    p.reshape z w ht h = .throw h := by
  unfold Planar.reshape
  rw [if_pos hp]; rfl

example : (⟨[⟨0, 2, 2, 1, 0, 2, true⟩], 2, 1, 0, 2, true⟩ : Planar).reshape (0 : Int) 2 1 ⟨[some [1, 2]]⟩ = .throw ⟨[some [1, 2]]⟩ :=
  C73_reshape_subimage 0 _ rfl 2 1

/-- A band is returned when there is one, otherwise `getBand` throws. -/
theorem C73_getBand (h : Heap V) (p : Planar) (i : Nat) :
    (∀ hi : i < p.bands.length, p.getBand i h = .ok p.bands[i] h) ∧ (p.bands.length ≤ i → p.getBand i h = .throw h) := by
  constructor
  · intro hi
    unfold Planar.getBand
    rw [List.getElem?_eq_getElem hi]; rfl
  · intro hi
    unfold Planar.getBand
    rw [List.getElem?_eq_none hi]; rfl

/-- Storing a pixel through band `i` changes this pixel of this band, and no other pixel of any band. -/
theorem C73_independent {h : Heap V} {p : Planar} (hv : p.Valid h) {i x y : Nat} (hi : i < p.bands.length) (hx : x < p.width)
    (hy : y < p.height) (v : V) :
    ∃ h', (p.getBand i >>= fun g => g.setAt x y v) h = .ok () h' ∧ p.Valid h' ∧
      ∀ (j : Nat) (g : Gray) x' y', p.bands[j]? = some g → x' < p.width → y' < p.height →
        h'.px g x' y' = if j = i ∧ x' = x ∧ y' = y then some v else h.px g x' y' := by
  have ei := List.getElem?_eq_getElem hi
  obtain ⟨vg, -, w1, w2⟩ := hv.band i _ ei
  obtain ⟨h', e, p1, -⟩ := C01_at_writes vg (x := x) (y := y) (by omega) (by omega) v
  refine ⟨h', (M.bind_ok ((C73_getBand h p i).1 hi)).trans e, ⟨?_, hv.apart, hv.own⟩, ?_⟩
  · intro j g ej
    obtain ⟨vj, r⟩ := hv.band j g ej
    exact ⟨p1.valid vg vj, r⟩
  · intro j g x' y' ej hx' hy'
    obtain ⟨vj, -, w3, w4⟩ := hv.band j g ej
    by_cases c : j = i
    · subst c
      rw [ei] at ej; cases ej
      rw [p1.pix x' y' (by omega) (by omega)]
      by_cases d : x' = x ∧ y' = y
      · rw [if_pos d, if_pos ⟨rfl, d⟩]; rfl
      · rw [if_neg d, if_neg (fun q => d q.2)]; rfl
    · rw [if_neg (fun q => c q.1)]
      exact p1.frame _ _ (fun _ _ _ _ q => hv.apart j i _ _ c ej ei q.1)

/-- Destroying a planar image which has a band is undefined behaviour: the pointer array is deleted as if it were a single
object, once per band, and the bands are never released. -/
theorem C73_destroy_refuted (h : Heap V) {p : Planar} (hp : p.bands ≠ []) : p.destroy h = .ub := by
  unfold Planar.destroy
  rw [if_neg (by rw [List.length_eq_zero_iff]; exact hp)]; rfl

/-- A program that makes, reshapes and reads a planar image of two bands. -/
example : (∃ p h', Planar.new (0 : Int) 3 2 2 ⟨[]⟩ = .ok p h' ∧ p.Valid h' ∧ p.bands.length = 2) ∧
    ((do let p ← Planar.new (0 : Int) 3 2 2
         let a ← p.getBand 0
         let b ← p.getBand 1
         a.setAt 1 1 5
         b.setAt 2 1 6
         let p ← p.reshape 0 2 1
         let a ← p.getBand 0
         let v ← a.at' 0 0
         let b ← p.getBand 1
         let u ← b.at' 1 0
         pure (v, u)) : M Int (Int × Int)) ⟨[]⟩ = .ok (0, 0) ⟨[some [0, 0, 0, 0, 5, 0], some [0, 0, 0, 0, 0, 6]]⟩ := by
  refine ⟨?_, by decide +kernel⟩
  obtain ⟨p, h', e, hv, hn, _⟩ := C73_new (0 : Int) ⟨[]⟩ (w := 3) (ht := 2) (n := 2) (by decide) (by decide) (by decide)
  exact ⟨p, h', e, hv, hn⟩

end Boof
