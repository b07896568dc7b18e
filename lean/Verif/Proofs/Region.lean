import Verif.Proofs.Winding
/-
Regions of black pixels, their first pixels in raster order and the boundaries found by a raster scan.
-/
namespace Boof
variable {e : Bool} {B : Pix → Bool} {w h : Nat}

/-- Connected black pixels. -/
inductive Conn (e : Bool) (B : Pix → Bool) : Pix → Pix → Prop
  | refl {p : Pix} : B p = true → Conn e B p p
  | step {p q : Pix} {j : Nat} : Conn e B p q → j < cnt e → B (nb e q j) = true → Conn e B p (nb e q j)

theorem Conn.left {p q : Pix} (hc : Conn e B p q) : B p = true := by
  induction hc with
  | refl h => exact h
  | step _ _ _ ih => exact ih

theorem Conn.right {p q : Pix} (hc : Conn e B p q) : B q = true := by
  cases hc <;> assumption

theorem Conn.trans {p q r : Pix} (h1 : Conn e B p q) (h2 : Conn e B q r) : Conn e B p r := by
  induction h2 with
  | refl _ => exact h1
  | step _ hj hb ih => exact ih.step hj hb

theorem Conn.symm {p q : Pix} (hB : InFrame w h B) (hc : Conn e B p q) : Conn e B q p := by
  induction hc with
  | refl hb => exact .refl hb
  | @step q j hpq hj hb ih =>
    obtain ⟨h1, h2, -⟩ := hB _ hpq.right
    have k : Conn e B (nb e q j) q := by
      have := (Conn.refl (e := e) hb).step (j := (j + cnt e / 2) % cnt e) (Nat.mod_lt _ cnt_pos)
        (by rw [nb_back h1 h2 hj]; exact hpq.right)
      rwa [nb_back h1 h2 hj] at this
    exact k.trans ih

theorem Orb.conn {s t : St} (hs : Good e B s) (ho : Orb e B s t) : Conn e B s.1 t.1 := by
  obtain ⟨k, rfl⟩ := ho
  induction k with
  | zero => exact .refl hs.1
  | succ k ih =>
    rw [Function.iterate_succ_apply']
    have g := iter_good hs k
    generalize (mu e B)^[k] s = u at ih g ⊢
    unfold mu
    split
    · next hb => exact ih.step g.2 hb
    · exact ih

theorem wind_conn {S : St → Prop} (hB : InFrame w h B) (hi : Inv e B S) {p q : Pix} (hc : Conn e B p q) :
    wind e B S q.1 q.2 = wind e B S p.1 p.2 := by
  induction hc with
  | refl _ => rfl
  | step hpq hj hb ih => rw [wind_black hB hi hj hpq.right hb, ih]

/-! ### Raster order -/

/-- `p` comes before `q` in raster order. -/
def Bef (p q : Pix) : Prop := p.2 < q.2 ∨ (p.2 = q.2 ∧ p.1 < q.1)

theorem Bef.irrefl {p : Pix} : ¬Bef p p := by unfold Bef; omega

theorem Bef.trans {p q r : Pix} (h1 : Bef p q) (h2 : Bef q r) : Bef p r := by unfold Bef at *; omega

theorem Bef.total (p q : Pix) : Bef p q ∨ p = q ∨ Bef q p := by
  obtain ⟨a, b⟩ := p
  obtain ⟨c, d⟩ := q
  unfold Bef
  simp only [Prod.mk.injEq]
  omega

theorem not_bef {p q : Pix} : ¬Bef p q ↔ q = p ∨ Bef q p := by
  constructor
  · intro hn; rcases Bef.total p q with h1 | h1 | h1
    · exact absurd h1 hn
    · exact Or.inl h1.symm
    · exact Or.inr h1
  · rintro (rfl | h1) h2
    · exact Bef.irrefl h2
    · exact Bef.irrefl (h1.trans h2)

theorem bef_above {p : Pix} (hy : 1 ≤ p.2) : Bef (nbA p 3) p := by
  obtain ⟨x, y⟩ := p
  simp only at hy
  left; simp [nbA, nb8]; omega

/-- The first pixel of its region. -/
def IsFirst (e : Bool) (B : Pix → Bool) (p : Pix) : Prop := B p = true ∧ ∀ q, Conn e B p q → ¬Bef q p

theorem exists_first (hB : InFrame w h B) {p : Pix} (hp : B p = true) : ∃ p0, IsFirst e B p0 ∧ Conn e B p0 p := by
  classical
  have h1 : ∃ y x, Conn e B p (x, y) := ⟨p.2, p.1, .refl hp⟩
  have h2 := Nat.find_spec h1
  refine ⟨(Nat.find h2, Nat.find h1), ?_, (Nat.find_spec h2).symm hB⟩
  refine ⟨(Nat.find_spec h2).right, ?_⟩
  rintro ⟨x, y⟩ hq hb
  have hq' := (Nat.find_spec h2).trans hq
  rcases hb with hb | ⟨hb, hb'⟩
  · exact Nat.find_min h1 hb ⟨x, hq'⟩
  · simp only at hb hb'
    subst hb
    exact Nat.find_min h2 hb' hq'

theorem IsFirst.unique (hB : InFrame w h B) {p q : Pix} (hp : IsFirst e B p) (hq : IsFirst e B q) (hc : Conn e B p q) :
    p = q := by
  rcases Bef.total p q with h1 | h1 | h1
  · exact absurd h1 (hq.2 p (hc.symm hB))
  · exact h1
  · exact absurd h1 (hp.2 q hc)

theorem IsFirst.above (hB : InFrame w h B) {p : Pix} (hp : IsFirst e B p) : B (nbA p 3) = false := by
  obtain ⟨-, h2, -⟩ := hB p hp.1
  cases hb : B (nbA p 3) with
  | false => rfl
  | true =>
    refine absurd (bef_above h2) (hp.2 _ ?_)
    have := (Conn.refl (e := e) hp.1).step (j := ax e 3) (ax_lt (by omega)) (by rw [nb_ax]; exact hb)
    rwa [nb_ax] at this

/-- A boundary winds around the first pixel of its region exactly if it contains its upper side. -/
theorem wind_first (hB : InFrame w h B) {s : St} (hs : Good e B s) {p0 : Pix} (hp : IsFirst e B p0)
    (hc : Conn e B p0 s.1) : wind e B (Orb e B s) p0.1 p0.2 = ind (Orb e B s (p0, ax e 3)) := by
  obtain ⟨h1, h2, -⟩ := hB p0 hp.1
  have hi := Orb.inv (e := e) (s := s) hB
  rw [wind_cross hB hi (a := 3) (by omega) hp.1 (hp.above hB)]
  have no : ∀ y' < p0.2, ∀ a, ¬Crack e B (Orb e B s) (p0.1, y') a := by
    rintro y' hy a ⟨-, -, ho⟩
    exact hp.2 _ (hc.trans (Orb.conn hs ho)) (Or.inl hy)
  have z : wind e B (Orb e B s) (nbA p0 3).1 (nbA p0 3).2 = 0 := by
    have : (nbA p0 3) = (p0.1, p0.2 - 1) := rfl
    rw [this]
    refine wind_zero hB hi ?_
    intro y' hy
    simp only at hy
    exact ⟨no y' (by omega) 1, no (y' + 1) (by omega) 3⟩
  rw [z]; omega

/-- On its own region the boundary winds once or not at all. -/
theorem wind_region (hB : InFrame w h B) {s : St} (hs : Good e B s) {p0 p : Pix} (hp : IsFirst e B p0)
    (hc : Conn e B p0 s.1) (hq : Conn e B p0 p) :
    wind e B (Orb e B s) p.1 p.2 = ind (Orb e B s (p0, ax e 3)) := by
  rw [wind_conn hB (Orb.inv hB) hq, wind_first hB hs hp hc]

/-! ### Boundaries traced during the scan -/

/-- The boundary of `s` is traced from the upper side of a first pixel in `F` or from the lower side of a pixel in `D`. -/
def Trd (e : Bool) (B : Pix → Bool) (F D : Pix → Prop) (s : St) : Prop :=
  (∃ p, F p ∧ IsFirst e B p ∧ Orb e B (p, ax e 3) s) ∨
  (∃ p, D p ∧ B p = true ∧ B (nbA p 1) = false ∧ Orb e B (p, ax e 1) s)

variable {F D : Pix → Prop}

theorem Trd.orb {s t : St} (h1 : Trd e B F D s) (h2 : Orb e B s t) : Trd e B F D t := by
  rcases h1 with ⟨p, a, b, c⟩ | ⟨p, a, b, b', c⟩
  · exact Or.inl ⟨p, a, b, c.trans h2⟩
  · exact Or.inr ⟨p, a, b, b', c.trans h2⟩

theorem good_ax {p : Pix} {a : Nat} (hp : B p = true) (ha : a < 4) : Good e B (p, ax e a) := ⟨hp, ax_lt ha⟩

theorem Trd.good {s : St} (h1 : Trd e B F D s) : Good e B s := by
  rcases h1 with ⟨p, a, b, c⟩ | ⟨p, a, b, b', c⟩
  · exact Orb.good (good_ax b.1 (by omega)) c
  · exact Orb.good (good_ax b (by omega)) c

theorem Trd.mono {F' D' : Pix → Prop} {s : St} (h1 : Trd e B F D s) (hF : ∀ p, F p → F' p) (hD : ∀ p, D p → D' p) :
    Trd e B F' D' s := by
  rcases h1 with ⟨p, a, b, c⟩ | ⟨p, a, b, b', c⟩
  · exact Or.inl ⟨p, hF p a, b, c⟩
  · exact Or.inr ⟨p, hD p a, b, b', c⟩

/-- The region of a traced boundary has its first pixel in the part already scanned. -/
theorem Trd.first (hB : InFrame w h B) {p : Pix} {s : St} (hF : ∀ q, F q → ¬Bef p q) (hD : ∀ q, D q → ¬Bef p q)
    (ht : Trd e B F D s) {p0 : Pix} (h0 : IsFirst e B p0) (hc : Conn e B p0 s.1) : ¬Bef p p0 := by
  rcases ht with ⟨q, a, b, c⟩ | ⟨q, a, b, b', c⟩
  · have : q = p0 := b.unique hB h0 ((Orb.conn (good_ax b.1 (by omega)) c).trans (hc.symm hB))
    rw [← this]; exact hF q a
  · have k : Conn e B p0 q := hc.trans ((Orb.conn (good_ax b (by omega)) c).symm hB)
    intro hb
    have := h0.2 q k
    rcases not_bef.1 this with rfl | h2
    · exact hD _ a hb
    · exact hD q a (hb.trans h2)

/-- A pixel without traced boundary and white above is the first of its region. -/
theorem unlabelled_first (hB : InFrame w h B) {p : Pix} (hp : B p = true) (ha : B (nbA p 3) = false)
    (hF : ∀ q, Bef q p → F q) (hD : ∀ q, Bef q p → D q) (hn : ∀ j, ¬Trd e B F D (p, j)) : IsFirst e B p := by
  obtain ⟨p0, h0, hc⟩ := exists_first (e := e) hB hp
  rcases not_bef.1 (h0.2 p hc) with rfl | hb
  · exact h0
  exfalso
  obtain ⟨h1, h2, -⟩ := hB p hp
  have g := good_ax (e := e) hp (show 3 < 4 by omega)
  have hi := Orb.inv (e := e) (s := (p, ax e 3)) hB
  by_cases hE : Orb e B (p, ax e 3) (p0, ax e 3)
  · exact hn (ax e 3) (Or.inl ⟨p0, hF _ hb, h0, hE.symm hB g⟩)
  · have k := wind_region hB g h0 hc hc
    rw [ind_neg hE, wind_cross hB hi (a := 3) (by omega) hp ha, ind_pos (Orb.refl _)] at k
    obtain ⟨y', hy, c1, c2, c3⟩ := wind_neg hB hi (x := (nbA p 3).1) (y := (nbA p 3).2) (by omega)
    refine hn (ax e 3) (Or.inr ⟨_, hD _ ?_, c1, c2, c3.symm hB g⟩)
    left
    have : (nbA p 3).2 = p.2 - 1 := rfl
    rw [this] at hy
    show y' < p.2
    omega

/-- A pixel without traced boundary and black above is black on the left. -/
theorem unlabelled_left (hB : InFrame w h B) {p : Pix} (hp : B p = true) (ha : B (nbA p 3) = true)
    (hF : ∀ q, Bef q p → F q) (hD : ∀ q, Bef q p → D q) (hn : ∀ j, ¬Trd e B F D (p, j)) : B (nbA p 2) = true := by
  cases hl : B (nbA p 2) with
  | true => rfl
  | false =>
    exfalso
    obtain ⟨p0, h0, hc⟩ := exists_first (e := e) hB hp
    obtain ⟨h1, h2, -⟩ := hB p hp
    have hb : Bef p0 p := by
      rcases not_bef.1 (h0.2 p hc) with rfl | hb
      · rw [h0.above hB] at ha; cases ha
      · exact hb
    have g := good_ax (e := e) hp (show 2 < 4 by omega)
    have hi := Orb.inv (e := e) (s := (p, ax e 2)) hB
    by_cases hE : Orb e B (p, ax e 2) (p0, ax e 3)
    · exact hn (ax e 2) (Or.inl ⟨p0, hF _ hb, h0, hE.symm hB g⟩)
    · have k := wind_region hB g h0 hc hc
      rw [ind_neg hE, wind_cross hB hi (a := 2) (by omega) hp hl, ind_pos (Orb.refl _)] at k
      obtain ⟨y', hy, c1, c2, c3⟩ := wind_neg hB hi (x := (nbA p 2).1) (y := (nbA p 2).2) (by omega)
      refine hn (ax e 2) (Or.inr ⟨_, hD _ ?_, c1, c2, c3.symm hB g⟩)
      left
      exact hy

/-- The lower side of a pixel in the last row belongs to the external boundary. -/
theorem bottom_traced (hB : InFrame w h B) {p : Pix} (hp : B p = true) (hy : p.2 = h)
    (hF : ∀ q, q = p ∨ Bef q p → F q) : Trd e B F D (p, ax e 1) := by
  obtain ⟨p0, h0, hc⟩ := exists_first (e := e) hB hp
  have g := good_ax (e := e) hp (show 1 < 4 by omega)
  have hi := Orb.inv (e := e) (s := (p, ax e 1)) hB
  have e1 : nbA p 1 = (p.1, h + 1) := by rw [← hy]; rfl
  have hw : B (nbA p 1) = false := by rw [e1]; exact frame_bottom hB _ (by omega)
  have k := wind_region hB g h0 hc hc
  rw [wind_cross hB hi (a := 1) (by omega) hp hw, ind_pos (Orb.refl _), e1,
    wind_row e _ (fun x => frame_bottom hB x (show h < h + 1 by omega))] at k
  by_cases hE : Orb e B (p, ax e 1) (p0, ax e 3)
  · refine Or.inl ⟨p0, hF _ ?_, h0, hE.symm hB g⟩
    rcases not_bef.1 (h0.2 p hc) with rfl | hb
    · exact Or.inl rfl
    · exact Or.inr hb
  · rw [ind_neg hE] at k; omega

/-- If the white pixel below has been seen from a traced boundary then the boundary at the lower side is traced. -/
theorem marked_traced (hB : InFrame w h B) {p : Pix} (hp : B p = true) (hw : B (nbA p 1) = false)
    (hF : ∀ q, F q ↔ q = p ∨ Bef q p) (hD : ∀ q, D q ↔ Bef q p) {r : Pix} {j : Nat} (ht : Trd e B F D (r, j))
    (hr : nb e r j = nbA p 1) : Trd e B F D (p, ax e 1) := by
  by_contra hn
  obtain ⟨p0, h0, hc⟩ := exists_first (e := e) hB hp
  have g := good_ax (e := e) hp (show 1 < 4 by omega)
  have hi := Orb.inv (e := e) (s := (p, ax e 1)) hB
  have hE : ¬Orb e B (p, ax e 1) (p0, ax e 3) := by
    intro hE
    refine hn (Or.inl ⟨p0, (hF _).2 ?_, h0, hE.symm hB g⟩)
    rcases not_bef.1 (h0.2 p hc) with rfl | hb
    · exact Or.inl rfl
    · exact Or.inr hb
  have wq : wind e B (Orb e B (p, ax e 1)) (nbA p 1).1 (nbA p 1).2 = -1 := by
    have k := wind_region hB g h0 hc hc
    rw [ind_neg hE, wind_cross hB hi (a := 1) (by omega) hp hw, ind_pos (Orb.refl _)] at k
    omega
  have no : ∀ t, Trd e B F D t → ¬Orb e B (p, ax e 1) t := by
    intro t ht ho
    exact hn (ht.orb (ho.symm hB g))
  obtain ⟨rb, rj⟩ : B r = true ∧ j < cnt e := ht.good
  have side : ∀ a, a < 4 → nbA r a = nbA p 1 → Trd e B F D (r, ax e a) →
      wind e B (Orb e B (p, ax e 1)) r.1 r.2 = -1 := by
    intro a ha1 ha2 ha3
    have := wind_cross hB hi ha1 rb (by rw [ha2]; exact hw)
    rw [ind_neg (no _ ha3), ha2, wq] at this
    omega
  have wr : wind e B (Orb e B (p, ax e 1)) r.1 r.2 = -1 := by
    cases e with
    | false => exact side j rj hr ht
    | true =>
      rcases Nat.even_or_odd' j with ⟨a, rfl | rfl⟩
      · exact side a (by simp [cnt] at rj; omega) hr ht
      · have ha : a < 4 := by simp [cnt] at rj; omega
        obtain ⟨h1, h2, -⟩ := hB r rb
        have hgeo : ∀ a < 4, nbA (nbA r a) ((a + 1) % 4) = nb8 r (2 * a + 1) ∧
            nbA (nbA r ((a + 1) % 4)) a = nb8 r (2 * a + 1) ∧
            nb8 (nbA r ((a + 1) % 4)) ((2 * a + 7) % 8) = nbA r a ∧ nb8 (nbA r a) ((2 * a + 4) % 8) = r ∧
            nb8 r ((2 * a + 2) % 8) = nbA r ((a + 1) % 4) := by
          obtain ⟨x, y⟩ := r
          simp only at h1 h2
          intro a ha
          rcases lt4_cases ha with rfl | rfl | rfl | rfl <;> simp [nbA, nb8] <;> omega
        obtain ⟨r1, r2, r3, r4, r5⟩ := hgeo a ha
        have hrw : nb8 r (2 * a + 1) = nbA p 1 := hr
        rw [hrw] at r1 r2
        have t2 : Trd true B F D (r, (2 * a + 2) % 8) := by
          have := ht.orb (Orb.next _)
          unfold mu at this
          rw [hr, hw] at this
          exact this
        -- crossing one white common neighbour
        have common : ∀ b, b < 4 → B (nbA r b) = false → Trd true B F D (r, ax true b) →
            (∃ c < 4, nbA (nbA p 1) c = nbA r b) → wind true B (Orb true B (p, ax true 1)) r.1 r.2 = -1 := by
          rintro b hb1 hb2 hb3 ⟨c, hc1, hc2⟩
          have k1 := wind_cross hB hi hb1 rb hb2
          rw [ind_neg (no _ hb3)] at k1
          have k2 := wind_same hB hi (p := nbA p 1) (a := c) hc1 (hB p hp).1 (by show 1 ≤ p.2 + 1; omega)
            (by rw [hc2, hb2, hw])
          rw [hc2, wq] at k2
          omega
        have qr : ∀ b, b < 4 → ∀ u, nbA u b = nbA p 1 → 1 ≤ u.1 → 1 ≤ u.2 → ∃ c < 4, nbA (nbA p 1) c = u := by
          intro b hb u hu u1 u2
          refine ⟨(b + 2) % 4, by omega, ?_⟩
          rw [← hu]
          obtain ⟨x, y⟩ := u
          simp only at u1 u2
          rcases lt4_cases hb with rfl | rfl | rfl | rfl <;> simp [nbA, nb8] <;> omega
        cases b1 : B (nbA r a) with
        | false =>
          refine common a ha b1 ?_ ?_
          · refine ht.orb ?_
            have : mu true B (r, 2 * a) = (r, 2 * a + 1) := by
              unfold mu
              have : B (nb true r (2 * a)) = false := b1
              rw [this]
              show (r, (2 * a + 1) % 8) = _
              rw [Nat.mod_eq_of_lt (by omega)]
            rw [← this]
            exact Orb.prev hB ⟨rb, by show 2 * a < 8; omega⟩
          · by_cases hz : 1 ≤ (nbA r a).1 ∧ 1 ≤ (nbA r a).2
            · exact qr _ (by omega) _ r1 hz.1 hz.2
            · refine ⟨(a + 3) % 4, by omega, ?_⟩
              rw [← hrw]
              obtain ⟨x, y⟩ := r
              simp only at h1 h2
              rcases lt4_cases ha with rfl | rfl | rfl | rfl <;> simp [nbA, nb8] at hz ⊢ <;> omega
        | true =>
          cases b2 : B (nbA r ((a + 1) % 4)) with
          | false =>
            refine common _ (by omega) b2 ?_ ?_
            · have : ax true ((a + 1) % 4) = (2 * a + 2) % 8 := by simp [ax]; omega
              rw [this]; exact t2
            · by_cases hz : 1 ≤ (nbA r ((a + 1) % 4)).1 ∧ 1 ≤ (nbA r ((a + 1) % 4)).2
              · exact qr _ (by omega) _ r2 hz.1 hz.2
              · refine ⟨(a + 2) % 4, by omega, ?_⟩
                rw [← hrw]
                obtain ⟨x, y⟩ := r
                simp only at h1 h2
                rcases lt4_cases ha with rfl | rfl | rfl | rfl <;> simp [nbA, nb8] at hz ⊢ <;> omega
          | true =>
            exfalso
            -- the boundary is a cycle of four states without a side
            set s2 := nbA r ((a + 1) % 4) with hs2
            set s1 := nbA r a with hs1
            have m1 : mu true B (r, 2 * a + 1) = (r, (2 * a + 2) % 8) := by
              unfold mu
              rw [hr, hw]; rfl
            have m2 : mu true B (r, (2 * a + 2) % 8) = (s2, (2 * a + 7) % 8) := by
              unfold mu
              have : nb true r ((2 * a + 2) % 8) = s2 := r5
              simp only [this, b2, if_true]
              have : ((2 * a + 2) % 8 + 8 / 2 + 1) % 8 = (2 * a + 7) % 8 := by omega
              show (s2, ((2 * a + 2) % 8 + 8 / 2 + 1) % 8) = _
              rw [this]
            have m3 : mu true B (s2, (2 * a + 7) % 8) = (s1, (2 * a + 4) % 8) := by
              unfold mu
              have : nb true s2 ((2 * a + 7) % 8) = s1 := r3
              simp only [this, b1, if_true]
              have : ((2 * a + 7) % 8 + 8 / 2 + 1) % 8 = (2 * a + 4) % 8 := by omega
              show (s1, ((2 * a + 7) % 8 + 8 / 2 + 1) % 8) = _
              rw [this]
            have m4 : mu true B (s1, (2 * a + 4) % 8) = (r, 2 * a + 1) := by
              unfold mu
              have : nb true s1 ((2 * a + 4) % 8) = r := r4
              simp only [this, rb, if_true]
              have : ((2 * a + 4) % 8 + 8 / 2 + 1) % 8 = 2 * a + 1 := by omega
              show (r, ((2 * a + 4) % 8 + 8 / 2 + 1) % 8) = _
              rw [this]
            have all : ∀ k, (mu true B)^[k] (r, 2 * a + 1) ∈
                [(r, 2 * a + 1), (r, (2 * a + 2) % 8), (s2, (2 * a + 7) % 8), (s1, (2 * a + 4) % 8)] := by
              intro k
              induction k with
              | zero => simp
              | succ k ih =>
                rw [Function.iterate_succ_apply']
                simp only [List.mem_cons, List.not_mem_nil, or_false] at ih ⊢
                rcases ih with ih | ih | ih | ih <;> rw [ih]
                · rw [m1]; simp
                · rw [m2]; simp
                · rw [m3]; simp
                · rw [m4]; simp
            have no' : ∀ u : Pix, ∀ b, B (nbA u b) = false → ¬Orb true B (r, 2 * a + 1) (u, ax true b) := by
              rintro u b hb ⟨k, hk⟩
              have := all k
              rw [hk] at this
              simp only [List.mem_cons, List.not_mem_nil, or_false, Prod.mk.injEq, ax, if_true] at this
              rcases this with ⟨rfl, c⟩ | ⟨rfl, c⟩ | ⟨rfl, c⟩ | ⟨rfl, c⟩
              · omega
              · have : nbA u b = s2 := by rw [← r5, ← c]; rfl
                rw [this, b2] at hb; cases hb
              · omega
              · have : nbA s1 b = r := by
                  have e1 : nbA s1 b = nb8 s1 (2 * b) := rfl
                  rw [e1, c]; exact r4
                rw [this, rb] at hb; cases hb
            rcases ht with ⟨u, a1, a2, a3⟩ | ⟨u, a1, a2, a2', a3⟩
            · exact no' u 3 (a2.above hB) (a3.symm hB (good_ax a2.1 (by omega)))
            · exact no' u 1 a2' (a3.symm hB (good_ax a2 (by omega)))
  obtain ⟨r0, f0, hc0⟩ := exists_first (e := e) hB rb
  have wr0 : wind e B (Orb e B (p, ax e 1)) r0.1 r0.2 < 0 := by
    rw [← wind_conn hB hi hc0, wr]; omega
  obtain ⟨y', hy, c1, c2, c3⟩ := wind_neg hB hi wr0
  have hu : ¬Bef (r0.1, y') p := fun hb => hn (Or.inr ⟨_, (hD _).2 hb, c1, c2, c3.symm hB g⟩)
  have hf := ht.first hB (p := p) (fun q hq hb => by
    rcases (hF q).1 hq with rfl | h1
    · exact Bef.irrefl hb
    · exact Bef.irrefl (hb.trans h1)) (fun q hq hb => Bef.irrefl (hb.trans ((hD q).1 hq))) f0 hc0
  have hur : Bef (r0.1, y') r0 := Or.inl hy
  rcases not_bef.1 hu with h1 | h1
  · rw [← h1] at hur; exact hf hur
  · exact hf (h1.trans hur)

end Boof
