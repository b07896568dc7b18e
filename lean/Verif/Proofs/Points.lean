import Verif.Proofs.Boundary
import Verif.Spec.Sum
/-
How often a pixel is listed in the contours: every listing is charged to one of the four sides of the pixel.
-/
namespace Boof

variable {e : Bool} {B : Pix → Bool} {w ht : Nat}

/-- The states of the boundary of `s` which look at a black neighbour, in order. -/
noncomputable def facing (e : Bool) (B : Pix → Bool) (s : St) : List St := (cycle e B s).filter (isBlk e B)

theorem blk_facing (s : St) (n : Nat) :
    blk e B s n = (((List.range n).map (fun k => (mu e B)^[k] s)).filter (isBlk e B)).map Prod.fst := by
  induction n with
  | zero => rfl
  | succ n ih =>
    rw [blk, ih, List.range_succ, List.map_append, List.filter_append, List.map_append]
    congr 1
    simp only [List.map_cons, List.map_nil, List.filter_cons, List.filter_nil]
    split <;> rfl

/-- The side of the pixel to which a state is charged. -/
def slot (e : Bool) (t : St) : St := if e then (if t.2 % 2 = 1 then (t.1, t.2 - 1) else (t.1, (t.2 + 6) % 8)) else t

theorem slot_fst (t : St) : (slot e t).1 = t.1 := by
  unfold slot; split
  · split <;> rfl
  · rfl

theorem slot_ax {t : St} (hj : t.2 < cnt e) : ∃ a < 4, (slot e t).2 = ax e a := by
  cases e
  · exact ⟨t.2, hj, rfl⟩
  · change t.2 < 8 at hj
    unfold slot ax
    simp only [if_true]
    split
    · exact ⟨t.2 / 2, by omega, by simp only; omega⟩
    · exact ⟨(t.2 / 2 + 3) % 4, by omega, by simp only; omega⟩

/-- Rule 8: what is white next to a state of a boundary. -/
theorem orb_J8 (hB : InFrame w ht B) {p : Pix} {a : Nat} (hp : B p = true) (ha : a < 4) (hq : B (nbA p a) = false) {t : St}
    (ho : Orb true B (p, ax true a) t) : J8 B (IsW B) t := by
  obtain ⟨k, rfl⟩ := ho
  induction k with
  | zero => exact J8.start hB (fun _ _ _ _ h => h) hp ha (by simp [hq])
  | succ k ih =>
    rw [Function.iterate_succ_apply']
    exact ih.mu hB (fun _ h => h) (fun _ _ _ _ h => h) (iter_good (good_ax hp ha) k)

/-- A state is reached from the side to which it is charged. -/
theorem slot_orb (hB : InFrame w ht B) {p : Pix} {a : Nat} (hp : B p = true) (ha : a < 4) (hq : B (nbA p a) = false) {t : St}
    (ho : Orb e B (p, ax e a) t) (hb : isBlk e B t = true) : Orb e B (slot e t) t := by
  cases e
  · exact Orb.refl _
  · have hg := ho.good (good_ax hp ha)
    have hJ := orb_J8 hB hp ha hq ho
    obtain ⟨r, j⟩ := t
    obtain ⟨hr, hj⟩ := hg
    change j < 8 at hj
    unfold isBlk at hb
    simp only at hb
    unfold J8 at hJ
    simp only at hJ
    unfold slot
    simp only [if_true]
    rcases Nat.mod_two_eq_zero_or_one j with h0 | h0
    · obtain ⟨b, rfl⟩ : ∃ b, j = 2 * b := ⟨j / 2, by omega⟩
      simp only [h0, show 2 * b / 2 = b by omega, show ¬(0 = 1) by omega, if_false] at hJ ⊢
      have hbb : B (nbA r b) = true := hb
      have hw : IsW B (diag r ((b + 3) % 4)) ∧ IsW B (nbA r ((b + 3) % 4)) := by
        rcases hJ with ⟨x1, x2 | x2⟩ | ⟨-, x2⟩
        · exact ⟨x1, x2⟩
        · exact absurd hbb x2
        · exact absurd hbb x2
      refine ⟨2, ?_⟩
      have e0 : (2 * b + 6) % 8 = 2 * ((b + 3) % 4) := by omega
      have := rot (e := true) (B := B) (p := r) (d := (2 * b + 6) % 8) (i := 2) (by show _ < 8; omega) (by
        intro i hi
        rcases show i = 0 ∨ i = 1 by omega with rfl | rfl
        · rw [show ((2 * b + 6) % 8 + 0) % cnt true = 2 * ((b + 3) % 4) by show ((2 * b + 6) % 8 + 0) % 8 = _; omega]
          exact Bool.eq_false_iff.2 hw.2
        · rw [show ((2 * b + 6) % 8 + 1) % cnt true = 2 * ((b + 3) % 4) + 1 by show ((2 * b + 6) % 8 + 1) % 8 = _; omega]
          exact Bool.eq_false_iff.2 hw.1)
      rw [this]
      congr 1
      show ((2 * b + 6) % 8 + 2) % 8 = _
      omega
    · obtain ⟨b, rfl⟩ : ∃ b, j = 2 * b + 1 := ⟨j / 2, by omega⟩
      simp only [h0, show (2 * b + 1) / 2 = b by omega, if_true] at hJ ⊢
      have hbb : B (diag r b) = true := hb
      have hw : IsW B (nbA r b) := by
        rcases hJ with x | ⟨-, x⟩
        · exact x
        · exact absurd hbb x
      refine ⟨1, ?_⟩
      have := rot (e := true) (B := B) (p := r) (d := 2 * b) (i := 1) (by show _ < 8; omega) (by
        intro i hi
        rw [show (2 * b + i) % cnt true = 2 * b by show (2 * b + i) % 8 = _; omega]
        exact Bool.eq_false_iff.2 hw)
      rw [show 2 * b + 1 - 1 = 2 * b by omega, this]
      congr 1
      show (2 * b + 1) % 8 = _
      omega

/-- Different states are charged to different sides. -/
theorem slot_inj (hB : InFrame w ht B) {p : Pix} {a : Nat} (hp : B p = true) (ha : a < 4) (hq : B (nbA p a) = false) {t u : St}
    (ht' : Orb e B (p, ax e a) t) (hu : Orb e B (p, ax e a) u) (bt : isBlk e B t = true) (bu : isBlk e B u = true)
    (hs : slot e t = slot e u) : t = u := by
  cases e
  · exact hs
  · have key : ∀ {r : Pix} {b : Nat}, b < 4 → Orb true B (p, ax true a) (r, 2 * b) → isBlk true B (r, 2 * b) = true →
        B (diag r ((b + 3) % 4)) = true → False := by
      intro r b hb ho h1 h2
      have hJ := orb_J8 hB hp ha hq ho
      unfold J8 at hJ
      simp only [show 2 * b % 2 = 0 by omega, show 2 * b / 2 = b by omega, show ¬(0 = 1) by omega, if_false] at hJ
      have hbb : B (nbA r b) = true := h1
      rcases hJ with ⟨x, -⟩ | ⟨-, x⟩
      · exact x h2
      · exact x hbb
    have g1 := (ht'.good (good_ax hp ha)).2
    have g2 := (hu.good (good_ax hp ha)).2
    obtain ⟨r, j⟩ := t
    obtain ⟨r', j'⟩ := u
    change j < 8 at g1
    change j' < 8 at g2
    unfold slot at hs
    simp only [if_true] at hs
    rcases Nat.mod_two_eq_zero_or_one j with h0 | h0 <;> rcases Nat.mod_two_eq_zero_or_one j' with h1 | h1
    · simp only [h0, h1, show ¬(0 = 1) by omega, if_false, Prod.mk.injEq] at hs ⊢
      exact ⟨hs.1, by omega⟩
    · simp only [h0, h1, show ¬(0 = 1) by omega, if_false, if_true, Prod.mk.injEq] at hs
      obtain ⟨rfl, hs⟩ := hs
      obtain ⟨b, rfl⟩ : ∃ b, j = 2 * b := ⟨j / 2, by omega⟩
      exact (key (by omega) ht' bt (by
        have : j' = 2 * ((b + 3) % 4) + 1 := by omega
        rw [this] at bu
        exact bu)).elim
    · simp only [h0, h1, show ¬(0 = 1) by omega, if_false, if_true, Prod.mk.injEq] at hs
      obtain ⟨rfl, hs⟩ := hs
      obtain ⟨b, rfl⟩ : ∃ b, j' = 2 * b := ⟨j' / 2, by omega⟩
      exact (key (by omega) hu bu (by
        have : j = 2 * ((b + 3) % 4) + 1 := by omega
        rw [this] at bt
        exact bt)).elim
    · simp only [h0, h1, if_true, Prod.mk.injEq] at hs ⊢
      exact ⟨hs.1, by omega⟩

/-- The sides to which the points of one contour are charged. -/
noncomputable def charge (e : Bool) (B : Pix → Bool) (s : St) : List St :=
  if facing e B s = [] then [s] else (facing e B s).map (slot e)

theorem chain_charge (s : St) : chain e B s = (charge e B s).map Prod.fst := by
  unfold chain charge
  rw [blk_facing]
  change (if (facing e B s).map Prod.fst = [] then _ else (facing e B s).map Prod.fst) = _
  by_cases h : facing e B s = []
  · rw [if_pos (by rw [h]; rfl), if_pos h]; rfl
  · rw [if_neg (by simpa using h), if_neg h, List.map_map]
    exact List.map_congr_left (fun t _ => (slot_fst t).symm)

variable {p : Pix} {a : Nat}

theorem charge_orb (hB : InFrame w ht B) (hp : B p = true) (ha : a < 4) (hq : B (nbA p a) = false) {t : St}
    (h : t ∈ charge e B (p, ax e a)) : Orb e B (p, ax e a) t := by
  have hg := good_ax (e := e) hp ha
  unfold charge at h
  split at h
  · rw [List.mem_singleton] at h
    subst h; exact Orb.refl _
  · obtain ⟨u, hu, rfl⟩ := List.mem_map.1 h
    obtain ⟨h1, h2⟩ := List.mem_filter.1 hu
    have ho := (mem_cycle hB hg).1 h1
    have hs := slot_orb hB hp ha hq ho h2
    have hgu := ho.good hg
    have hgs : Good e B (slot e u) := by
      obtain ⟨c, hc, h3⟩ := slot_ax hgu.2
      refine ⟨by rw [slot_fst]; exact hgu.1, by rw [h3]; exact ax_lt hc⟩
    exact ho.trans (hs.symm hB hgs)

theorem charge_ax (hB : InFrame w ht B) (hp : B p = true) (ha : a < 4) {t : St}
    (h : t ∈ charge e B (p, ax e a)) : ∃ c < 4, t.2 = ax e c := by
  have hg := good_ax (e := e) hp ha
  unfold charge at h
  split at h
  · rw [List.mem_singleton] at h
    subst h; exact ⟨a, ha, rfl⟩
  · obtain ⟨u, hu, rfl⟩ := List.mem_map.1 h
    obtain ⟨h1, h2⟩ := List.mem_filter.1 hu
    exact slot_ax (((mem_cycle hB hg).1 h1).good hg).2

theorem charge_nodup (hB : InFrame w ht B) (hp : B p = true) (ha : a < 4) (hq : B (nbA p a) = false) :
    (charge e B (p, ax e a)).Nodup := by
  have hg := good_ax (e := e) hp ha
  unfold charge
  split
  · simp
  · refine List.Nodup.map_on ?_ ((cycle_nodup _).filter _)
    intro t h1 u h2 h3
    obtain ⟨t1, t2⟩ := List.mem_filter.1 h1
    obtain ⟨u1, u2⟩ := List.mem_filter.1 h2
    exact slot_inj hB hp ha hq ((mem_cycle hB hg).1 t1) ((mem_cycle hB hg).1 u1) t2 u2 h3

/-- The points of all contours, as the sides to which they are charged. -/
noncomputable def charges (e : Bool) (B : Pix → Bool) (L : List (Pix × Bool)) : List St :=
  L.flatMap (fun s => charge e B (startSt e s))

theorem chains_charges (L : List (Pix × Bool)) :
    (L.map (fun s => chain e B (startSt e s))).flatten = (charges e B L).map Prod.fst := by
  unfold charges
  induction L with
  | nil => rfl
  | cons s L ih => rw [List.map_cons, List.flatten_cons, ih, List.flatMap_cons, List.map_append, chain_charge]

theorem charges_nodup (hB : InFrame w ht B) {L : List (Pix × Bool)}
    (hs : ∀ s ∈ L, B s.1 = true ∧ B (nbA s.1 (startAx s.2)) = false)
    (hp : L.Pairwise (fun s t => ¬Orb e B (startSt e s) (startSt e t))) : (charges e B L).Nodup := by
  unfold charges
  rw [List.nodup_flatMap]
  refine ⟨fun s h => charge_nodup hB (hs s h).1 (startAx_lt _) (hs s h).2, ?_⟩
  refine (List.Pairwise.and_mem.1 hp).imp ?_
  rintro s t ⟨h1, h2, h3⟩ u hu hv
  have o1 := charge_orb hB (hs s h1).1 (startAx_lt _) (hs s h1).2 hu
  have o2 := charge_orb hB (hs t h2).1 (startAx_lt _) (hs t h2).2 hv
  exact h3 (o1.trans (o2.symm hB (good_ax (hs t h2).1 (startAx_lt _))))

theorem charges_mem (hB : InFrame w ht B) {L : List (Pix × Bool)}
    (hs : ∀ s ∈ L, B s.1 = true ∧ B (nbA s.1 (startAx s.2)) = false) {t : St} (h : t ∈ charges e B L) :
    B t.1 = true ∧ ∃ c < 4, t.2 = ax e c := by
  obtain ⟨s, h1, h2⟩ := List.mem_flatMap.1 h
  obtain ⟨b1, b2⟩ := hs s h1
  exact ⟨((charge_orb hB b1 (startAx_lt _) b2 h2).good (good_ax b1 (startAx_lt _))).1, charge_ax hB b1 (startAx_lt _) h2⟩

/-- The four sides of a pixel. -/
def fourSt (e : Bool) (q : Pix) : List St := (List.range 4).map (fun a => (q, ax e a))

theorem mem_fourSt {q : Pix} {t : St} : t ∈ fourSt e q ↔ t.1 = q ∧ ∃ c < 4, t.2 = ax e c := by
  unfold fourSt
  simp only [List.mem_map, List.mem_range]
  constructor
  · rintro ⟨c, hc, rfl⟩; exact ⟨rfl, c, hc, rfl⟩
  · rintro ⟨rfl, c, hc, h⟩; exact ⟨c, hc, by rw [← h]⟩

theorem charges_count (hB : InFrame w ht B) {L : List (Pix × Bool)}
    (hs : ∀ s ∈ L, B s.1 = true ∧ B (nbA s.1 (startAx s.2)) = false)
    (hp : L.Pairwise (fun s t => ¬Orb e B (startSt e s) (startSt e t))) (q : Pix) :
    ((charges e B L).map Prod.fst).count q ≤ 4 := by
  have nd := (charges_nodup hB hs hp).filter (fun t => t.1 == q)
  have sub : (charges e B L).filter (fun t => t.1 == q) ⊆ fourSt e q := by
    intro t h
    obtain ⟨h1, h2⟩ := List.mem_filter.1 h
    exact mem_fourSt.2 ⟨by simpa using h2, (charges_mem hB hs h1).2⟩
  have le := (nd.subperm sub).length_le
  rw [List.count, List.countP_map, List.countP_eq_length_filter]
  exact le

theorem charges_length (hB : InFrame w ht B) {L : List (Pix × Bool)}
    (hs : ∀ s ∈ L, B s.1 = true ∧ B (nbA s.1 (startAx s.2)) = false)
    (hp : L.Pairwise (fun s t => ¬Orb e B (startSt e s) (startSt e t))) :
    (charges e B L).length ≤ 4 * (raster w ht).countP B := by
  have nd := charges_nodup hB hs hp
  have sub : charges e B L ⊆ ((raster w ht).filter B).flatMap (fourSt e) := by
    intro t h
    obtain ⟨h1, h2⟩ := charges_mem hB hs h
    obtain ⟨x1, x2, x3, x4⟩ := hB _ h1
    exact List.mem_flatMap.2 ⟨t.1, List.mem_filter.2 ⟨mem_raster.2 ⟨x1, x3, x2, x4⟩, h1⟩, mem_fourSt.2 ⟨rfl, h2⟩⟩
  have le := (nd.subperm sub).length_le
  have l2 : (((raster w ht).filter B).flatMap (fourSt e)).length = 4 * (raster w ht).countP B := by
    rw [List.length_flatMap, List.countP_eq_length_filter]
    simp [fourSt, Nat.mul_comm]
  omega

/-- The steps of a contour with more than one point are states of its orbit. -/
theorem chain_step {s : St} (hl : (chain e B s).length ≠ 1) {k : Nat} (hk : k < (chain e B s).length) :
    ∃ t, Orb e B s t ∧ (chain e B s)[k]? = some t.1 ∧ (chain e B s)[(k + 1) % (chain e B s).length]? = some (nb e t.1 t.2) := by
  by_cases hnil : blk e B s (Function.minimalPeriod (mu e B) s) = []
  · have hch : chain e B s = [s.1] := by unfold chain; rw [if_pos hnil]
    rw [hch] at hl; simp at hl
  have hch : chain e B s = blk e B s (Function.minimalPeriod (mu e B) s) := by unfold chain; rw [if_neg hnil]
  rw [hch] at hk ⊢
  have hf := blk_fst (e := e) (B := B) s (Function.minimalPeriod (mu e B) s)
  have hn := blk_next (e := e) (B := B) s (Function.minimalPeriod (mu e B) s)
  rw [per_iter] at hn
  have hg : ∀ t ∈ blkSt e B s (Function.minimalPeriod (mu e B) s), Orb e B s t := by
    intro t ht
    obtain ⟨k, -, rfl⟩ := List.mem_map.1 (List.mem_filter.1 ht).1
    exact ⟨k, rfl⟩
  generalize blk e B s (Function.minimalPeriod (mu e B) s) = c at *
  generalize blkSt e B s (Function.minimalPeriod (mu e B) s) = z at *
  have hlen : c.length = z.length := by rw [hf, List.length_map]
  have a1 : (c ++ [s.1])[k + 1]? = (z.map (fun t => nb e t.1 t.2))[k]? := by rw [hn]; rfl
  rw [List.getElem?_map, List.getElem?_eq_getElem (by omega : k < z.length), Option.map_some] at a1
  have hkz : k < z.length := by omega
  refine ⟨z[k], hg _ (List.getElem_mem _), ?_, ?_⟩
  · rw [hf, List.getElem?_map, List.getElem?_eq_getElem (by omega : k < z.length)]; rfl
  · rw [← a1]
    rcases Nat.lt_or_ge (k + 1) c.length with h | h
    · rw [Nat.mod_eq_of_lt h, List.getElem?_append_left h]
    · have e1 : k + 1 = c.length := by omega
      have a2 : (c ++ [s.1])[0]? = some s.1 := by rw [hn]; rfl
      rw [List.getElem?_append_left (by omega)] at a2
      rw [e1, Nat.mod_self, a2]
      simp

/-- Two contours with a step in common have the same orbit. -/
theorem chains_step (hB : InFrame w ht B) {s u : St} (hs : Good e B s) (hu : Good e B u) (hl : (chain e B s).length ≠ 1)
    {m n : Nat} (hm : m < (chain e B s).length) (hn : n < (chain e B u).length) (h1 : (chain e B s)[m]? = (chain e B u)[n]?)
    (h2 : (chain e B s)[(m + 1) % (chain e B s).length]? = (chain e B u)[(n + 1) % (chain e B u).length]?) : Orb e B s u := by
  obtain ⟨t, t1, t2, t3⟩ := chain_step hl hm
  have hg := t1.good hs
  obtain ⟨p1, p2, -⟩ := hB _ hg.1
  by_cases hl' : (chain e B u).length = 1
  · rw [hl'] at hn h2
    obtain rfl : n = 0 := by omega
    rw [t2] at h1
    rw [t3, show (0 + 1) % 1 = 0 from rfl, ← h1] at h2
    have := (adj_iff (e := e) p1 p2).2 ⟨t.2, hg.2, rfl⟩
    exact absurd (Option.some.inj h2).symm this.ne
  · obtain ⟨v, v1, v2, v3⟩ := chain_step hl' hn
    rw [t2, v2] at h1
    rw [t3, v3] at h2
    have e1 := Option.some.inj h1
    have e2 := Option.some.inj h2
    rw [← e1] at e2
    have e3 := nb_inj p1 p2 hg.2 (v1.good hu).2 e2
    have : t = v := Prod.ext e1 e3
    subst this
    exact t1.trans (v1.symm hB hu)

end Boof
