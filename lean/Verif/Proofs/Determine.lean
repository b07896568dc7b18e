import Verif.Proofs.Points
/-
The pixels of the boundaries, in order, determine the picture.
-/
namespace Boof
variable {e : Bool} {B B' : Pix → Bool} {w ht w' ht' : Nat}

theorem blkSt_mem (hB : InFrame w ht B) {s : St} (hs : Good e B s) {t : St} :
    t ∈ blkSt e B s (Function.minimalPeriod (mu e B) s) ↔ Orb e B s t ∧ isBlk e B t = true := by
  unfold blkSt
  rw [List.mem_filter]
  refine and_congr_left fun _ => ?_
  rw [List.mem_map]
  constructor
  · rintro ⟨k, -, rfl⟩; exact ⟨k, rfl⟩
  · intro ho
    obtain ⟨k, k1, k2⟩ := orb_lt hB hs ho
    exact ⟨k, List.mem_range.2 k1, k2⟩

/-- Equal paths of more than one pixel make the same steps. -/
theorem states_eq (hB : InFrame w ht B) (hB' : InFrame w' ht' B') {s s' : St} (hs : Good e B s) (hs' : Good e B' s')
    (hc : chain e B s = chain e B' s') (hl : (chain e B s).length ≠ 1) :
    blkSt e B s (Function.minimalPeriod (mu e B) s) = blkSt e B' s' (Function.minimalPeriod (mu e B') s') ∧
    blkSt e B s (Function.minimalPeriod (mu e B) s) ≠ [] := by
  have main : ∀ {B : Pix → Bool} {s : St}, (chain e B s).length ≠ 1 →
      chain e B s = (blkSt e B s (Function.minimalPeriod (mu e B) s)).map Prod.fst ∧
      chain e B s ++ [s.1] = s.1 :: (blkSt e B s (Function.minimalPeriod (mu e B) s)).map (fun t => nb e t.1 t.2) ∧
      blkSt e B s (Function.minimalPeriod (mu e B) s) ≠ [] := by
    intro B s hl
    have hnil : blk e B s (Function.minimalPeriod (mu e B) s) ≠ [] := by
      intro hnil
      have hch : chain e B s = [s.1] := by unfold chain; rw [if_pos hnil]
      rw [hch] at hl; exact hl rfl
    have hch : chain e B s = blk e B s (Function.minimalPeriod (mu e B) s) := by unfold chain; rw [if_neg hnil]
    have hn := blk_next (e := e) (B := B) s (Function.minimalPeriod (mu e B) s)
    rw [per_iter] at hn
    rw [hch]
    refine ⟨blk_fst s _, hn, ?_⟩
    intro h0
    rw [blk_fst, h0] at hnil
    exact hnil rfl
  obtain ⟨a1, a2, a3⟩ := main hl
  obtain ⟨b1, b2, -⟩ := main (B := B') (s := s') (by rw [← hc]; exact hl)
  refine ⟨?_, a3⟩
  have hg : ∀ t ∈ blkSt e B s (Function.minimalPeriod (mu e B) s), 1 ≤ t.1.1 ∧ 1 ≤ t.1.2 ∧ t.2 < cnt e := by
    intro t ht
    have g := ((blkSt_mem hB hs).1 ht).1.good hs
    obtain ⟨p1, p2, -⟩ := hB _ g.1
    exact ⟨p1, p2, g.2⟩
  have hg' : ∀ t ∈ blkSt e B' s' (Function.minimalPeriod (mu e B') s'), t.2 < cnt e :=
    fun t ht => (((blkSt_mem hB' hs').1 ht).1.good hs').2
  generalize blkSt e B s (Function.minimalPeriod (mu e B) s) = z at *
  generalize blkSt e B' s' (Function.minimalPeriod (mu e B') s') = z' at *
  have hss : s.1 = s'.1 := by
    have h1 := congrArg List.head? a2
    have h2 := congrArg List.head? b2
    rw [hc, b1] at h1
    rw [b1] at h2
    have hz' : z' ≠ [] := by
      rintro rfl
      rw [hc, b1] at a1
      exact a3 (List.map_eq_nil_iff.1 a1.symm)
    cases z' with
    | nil => exact absurd rfl hz'
    | cons t z' =>
      have h1 : some t.1 = some s.1 := h1
      have h2 : some t.1 = some s'.1 := h2
      rw [h1] at h2
      exact Option.some.inj h2
  rw [hc, hss, b2] at a2
  have hnb : z'.map (fun t => nb e t.1 t.2) = z.map (fun t => nb e t.1 t.2) := (List.cons.inj a2).2
  rw [hc, b1] at a1
  have hlen : z.length = z'.length := by simpa using (congrArg List.length a1).symm
  apply List.ext_getElem hlen
  intro i hi hi'
  have e1 : (z[i]'hi).1 = (z'[i]'hi').1 := by
    have := congrArg (fun l => l[i]?) a1
    simp only [List.getElem?_map, List.getElem?_eq_getElem hi, List.getElem?_eq_getElem hi', Option.map_some, Option.some.injEq] at this
    exact this.symm
  have e2 : nb e (z[i]'hi).1 (z[i]'hi).2 = nb e (z'[i]'hi').1 (z'[i]'hi').2 := by
    have := congrArg (fun l => l[i]?) hnb
    simp only [List.getElem?_map, List.getElem?_eq_getElem hi, List.getElem?_eq_getElem hi', Option.map_some, Option.some.injEq] at this
    exact this.symm
  obtain ⟨g1, g2, g3⟩ := hg _ (List.getElem_mem hi)
  rw [← e1] at e2
  exact Prod.ext e1 (nb_inj g1 g2 g3 (hg' _ (List.getElem_mem hi')) e2)

/-- Boundaries with the same path look at the same neighbours, of the same colour. -/
theorem orbit_sub (hB : InFrame w ht B) (hB' : InFrame w' ht' B') {s s' : St} (hs : Good e B s) (hs' : Good e B' s')
    (hc : chain e B s = chain e B' s') (hl : (chain e B s).length ≠ 1) {t : St} (ho : Orb e B s t) :
    Orb e B' s' t ∧ isBlk e B' t = isBlk e B t := by
  obtain ⟨hz, hne⟩ := states_eq hB hB' hs hs' hc hl
  have hmem : ∀ t, (Orb e B s t ∧ isBlk e B t = true) ↔ (Orb e B' s' t ∧ isBlk e B' t = true) := by
    intro t
    rw [← blkSt_mem hB hs, ← blkSt_mem hB' hs', hz]
  have hcol : ∀ t, Orb e B s t → Orb e B' s' t → isBlk e B' t = isBlk e B t := by
    intro t h1 h2
    by_cases hb : isBlk e B t = true
    · rw [hb, ((hmem t).1 ⟨h1, hb⟩).2]
    · by_cases hb' : isBlk e B' t = true
      · exact absurd ((hmem t).2 ⟨h2, hb'⟩).2 hb
      · rw [Bool.not_eq_true] at hb hb'; rw [hb, hb']
  obtain ⟨t0, h0⟩ := List.exists_mem_of_ne_nil _ hne
  have o1 := (blkSt_mem hB hs).1 h0
  have o2 := (hmem t0).1 o1
  obtain ⟨k, hk⟩ := (o1.1.symm hB hs).trans ho
  have walk : ∀ k, Orb e B' s' ((mu e B)^[k] t0) := by
    intro k
    induction k with
    | zero => exact o2.1
    | succ k ih =>
      rw [Function.iterate_succ_apply']
      have hin : Orb e B s ((mu e B)^[k] t0) := o1.1.trans ⟨k, rfl⟩
      have := hcol _ hin ih
      have hmu : mu e B ((mu e B)^[k] t0) = mu e B' ((mu e B)^[k] t0) := by
        unfold isBlk at this
        generalize (mu e B)^[k] t0 = u at *
        unfold mu
        rw [this]
      rw [hmu]
      exact ih.trans (Orb.next _)
  have h2 : Orb e B' s' t := hk ▸ walk k
  exact ⟨h2, hcol t ho h2⟩

/-- A side on a boundary is a side in every picture which has a boundary with the same path. -/
theorem side_same (hB : InFrame w ht B) (hB' : InFrame w' ht' B') {s s' : St} (hs : Good e B s) (hs' : Good e B' s')
    (hc : chain e B s = chain e B' s') {p : Pix} {a : Nat} (ha : a < 4) (ho : Orb e B s (p, ax e a)) (hq : B (nbA p a) = false) :
    B' p = true ∧ B' (nbA p a) = false := by
  have hm : p ∈ chain e B s := (chain_mem hB hs).2 ⟨_, ho⟩
  rw [hc] at hm
  obtain ⟨j, hj⟩ := (chain_mem hB' hs').1 hm
  have hp : B' p = true := (hj.good hs').1
  refine ⟨hp, ?_⟩
  by_cases hl : (chain e B s).length = 1
  · have hcp := chain_path hB' hs'
    rw [hc] at hl
    have hps : p = s'.1 := by
      obtain ⟨x, hx⟩ := List.length_eq_one_iff.1 hl
      have := hcp.head
      rw [hx] at this hm
      rw [List.mem_singleton.1 hm]
      exact Option.some.inj this
    by_contra hb
    rw [Bool.not_eq_false] at hb
    obtain ⟨p1, p2, -⟩ := hB' p hp
    refine hcp.single hl _ hb ?_
    rw [← hps]
    exact (adj_iff p1 p2).2 ⟨ax e a, ax_lt ha, nb_ax p a⟩
  · have := (orbit_sub hB hB' hs hs' hc hl ho).2
    unfold isBlk at this
    simp only [nb_ax] at this
    rw [this, hq]

/-- Pictures whose boundaries have the same paths are the same. -/
theorem same_picture (hB : InFrame w ht B) (hB' : InFrame w' ht' B')
    (h1 : ∀ s ∈ starts e B (raster w ht), ∃ s' ∈ starts e B' (raster w' ht'), chain e B (startSt e s) = chain e B' (startSt e s'))
    (h2 : ∀ s' ∈ starts e B' (raster w' ht'), ∃ s ∈ starts e B (raster w ht), chain e B (startSt e s) = chain e B' (startSt e s'))
    (p : Pix) : B p = B' p := by
  have k1 : ∀ {p : Pix} {a : Nat}, a < 4 → B p = true → B (nbA p a) = false → B' p = true ∧ B' (nbA p a) = false := by
    intro p a ha hp hq
    obtain ⟨s, hs, ho⟩ := crack_started (e := e) hB hp ha hq
    obtain ⟨s', hs', hc⟩ := h1 s hs
    exact side_same hB hB' (good_ax (starts_side hB hs).1 (startAx_lt _)) (good_ax (starts_side hB' hs').1 (startAx_lt _)) hc ha ho hq
  have k2 : ∀ {p : Pix} {a : Nat}, a < 4 → B' p = true → B' (nbA p a) = false → B p = true ∧ B (nbA p a) = false := by
    intro p a ha hp hq
    obtain ⟨s', hs', ho⟩ := crack_started (e := e) hB' hp ha hq
    obtain ⟨s, hs, hc⟩ := h2 s' hs'
    exact side_same hB' hB (good_ax (starts_side hB' hs').1 (startAx_lt _)) (good_ax (starts_side hB hs).1 (startAx_lt _)) hc.symm ha ho hq
  obtain ⟨x, y⟩ := p
  induction x with
  | zero =>
    have n1 : ¬B (0, y) = true := fun h => by have := (hB _ h).1; simp at this
    have n2 : ¬B' (0, y) = true := fun h => by have := (hB' _ h).1; simp at this
    rw [Bool.not_eq_true] at n1 n2
    rw [n1, n2]
  | succ x ih =>
    have l : nbA (x + 1, y) 2 = (x, y) := rfl
    have r : nbA (x, y) 0 = (x + 1, y) := rfl
    rw [Bool.eq_iff_iff]
    constructor
    · intro hb
      by_contra hb'
      rw [Bool.not_eq_true] at hb'
      cases hx : B (x, y)
      · have := k1 (p := (x + 1, y)) (a := 2) (by omega) hb (by rw [l]; exact hx)
        rw [hb'] at this; cases this.1
      · have := k2 (p := (x, y)) (a := 0) (by omega) (by rw [← ih]; exact hx) (by rw [r]; exact hb')
        rw [r, hb] at this; cases this.2
    · intro hb'
      by_contra hb
      rw [Bool.not_eq_true] at hb
      cases hx : B (x, y)
      · have := k2 (p := (x + 1, y)) (a := 2) (by omega) hb' (by rw [l, ← ih]; exact hx)
        rw [hb] at this; cases this.1
      · have := k1 (p := (x, y)) (a := 0) (by omega) hx (by rw [r]; exact hb)
        rw [r, hb'] at this; cases this.2

end Boof
