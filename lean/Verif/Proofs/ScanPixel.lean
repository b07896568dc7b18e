import Verif.Proofs.Scan
/-
One pixel of the scan of `LinearContourLabelChang2004::process`.
-/
namespace Boof
open M

variable {e : Bool} {B : Pix → Bool} {w ht : Nat} {bg lab : Gray} {h0 h h1 : Heap Int} {c : Limits}

/-- The white pixels at which tracing started. -/
def Qof (e : Bool) (B : Pix → Bool) (F D : Pix → Prop) (q : Pix) : Prop :=
  (∃ p, F p ∧ IsFirst e B p ∧ q = nbA p 3) ∨ (∃ p, D p ∧ q = nbA p 1)

theorem trd_congr {F F' D D' : Pix → Prop} (hF : ∀ q, IsFirst e B q → (F q ↔ F' q)) (hD : ∀ q, B q = true → (D q ↔ D' q)) (s : St) :
    Trd e B F D s ↔ Trd e B F' D' s := by
  unfold Trd
  constructor
  · rintro (⟨p, a, b, d⟩ | ⟨p, a, b, b', d⟩)
    · exact Or.inl ⟨p, (hF p b).1 a, b, d⟩
    · exact Or.inr ⟨p, (hD p b).1 a, b, b', d⟩
  · rintro (⟨p, a, b, d⟩ | ⟨p, a, b, b', d⟩)
    · exact Or.inl ⟨p, (hF p b).2 a, b, d⟩
    · exact Or.inr ⟨p, (hD p b).2 a, b, b', d⟩

theorem Qof.mono {F F' D D' : Pix → Prop} (hF : ∀ q, F q → F' q) (hD : ∀ q, D q → D' q) {q : Pix} (h : Qof e B F D q) :
    Qof e B F' D' q := by
  rcases h with ⟨p, a, b⟩ | ⟨p, a, b⟩
  · exact Or.inl ⟨p, hF p a, b⟩
  · exact Or.inr ⟨p, hD p a, b⟩

theorem trd_first {F D : Pix → Prop} {p : Pix} (hp : IsFirst e B p) (u : St) :
    Trd e B (fun q => q = p ∨ F q) D u ↔ Trd e B F D u ∨ Orb e B (p, ax e 3) u := by
  unfold Trd
  constructor
  · rintro (⟨q, rfl | a, b, d⟩ | hd)
    · exact Or.inr d
    · exact Or.inl (Or.inl ⟨q, a, b, d⟩)
    · exact Or.inl (Or.inr hd)
  · rintro ((⟨q, a, b, d⟩ | hd) | ho)
    · exact Or.inl ⟨q, Or.inr a, b, d⟩
    · exact Or.inr hd
    · exact Or.inl ⟨p, Or.inl rfl, hp, ho⟩

theorem trd_lower {F D : Pix → Prop} {p : Pix} (hp : B p = true) (hq : B (nbA p 1) = false) (u : St) :
    Trd e B F (fun q => q = p ∨ D q) u ↔ Trd e B F D u ∨ Orb e B (p, ax e 1) u := by
  unfold Trd
  constructor
  · rintro (hf | ⟨q, rfl | a, b, b', d⟩)
    · exact Or.inl (Or.inl hf)
    · exact Or.inr d
    · exact Or.inl (Or.inr ⟨q, a, b, b', d⟩)
  · rintro ((hf | ⟨q, a, b, b', d⟩) | ho)
    · exact Or.inl hf
    · exact Or.inr ⟨q, Or.inr a, b, b', d⟩
    · exact Or.inr ⟨p, Or.inl rfl, hp, hq, ho⟩

theorem first_untraced (hB : InFrame w ht B) {p : Pix} (hp : IsFirst e B p) (j : Nat) :
    ¬Trd e B (fun q => Bef q p) (fun q => Bef q p) (p, j) := by
  rintro (⟨q, a, b, d⟩ | ⟨q, a, b, b', d⟩)
  · have := Orb.conn (good_ax b.1 (by omega)) d
    rw [b.unique hB hp this] at a
    exact Bef.irrefl a
  · have := Orb.conn (good_ax b (by omega)) d
    exact hp.2 q (this.symm hB) a

/-- A labelled left neighbour. -/
theorem left_label {T : St → Prop} {Q Sc : Pix → Prop} (hH : HInv e B w ht bg lab h0 h T Q Sc) {p : Pix} (hp : B p = true)
    (hl : B (nbA p 2) = true) (hS : ∀ q, Bef q p → Sc q) :
    h.cell lab.buf (lab.addr (p.1 - 1) (p.2 - 1) - 1) = some (idOf e B w ht p : Int) ∧ 0 < lab.addr (p.1 - 1) (p.2 - 1) := by
  have hB := hH.fr.fr
  obtain ⟨p1, p2, p3, p4⟩ := hB p hp
  have e0 : nbA p 2 = (p.1 - 1, p.2) := rfl
  have hm : nbA p 2 ∈ raster w ht := by
    obtain ⟨a, b, c, d⟩ := hB _ hl; exact mem_raster.2 ⟨a, c, b, d⟩
  have hm' := mem_raster.1 hm
  rw [e0] at hm'
  simp only at hm'
  have key := hH.lbl (nbA p 2) hm hl (Or.inl (hS _ (Or.inr ⟨rfl, by rw [e0]; show p.1 - 1 < p.1; omega⟩)))
  have hc : Conn e B p (nbA p 2) := by
    have := (Conn.refl (e := e) hp).step (j := ax e 2) (ax_lt (by omega)) (by rw [nb_ax]; exact hl)
    rwa [nb_ax] at this
  rw [← idOf_conn hB hc, e0] at key
  have ea : lab.addr (p.1 - 1 - 1) (p.2 - 1) = lab.addr (p.1 - 1) (p.2 - 1) - 1 := by unfold Gray.addr; omega
  refine ⟨?_, by unfold Gray.addr; omega⟩
  rw [← ea]; exact key

/-- What the scan finds below a pixel. -/
theorem below_spec {Sc : Pix → Prop} {p : Pix} (hp : B p = true)
    (hH : HInv e B w ht bg lab h0 h (Trd e B (fun q => q = p ∨ Bef q p) (fun q => Bef q p))
      (Qof e B (fun q => q = p ∨ Bef q p) (fun q => Bef q p)) Sc) :
    ∃ v, h.cell bg.buf (bg.addr p.1 (p.2 + 1)) = some v ∧ (v = 0 ↔ IsHole e B p) := by
  have hB := hH.fr.fr
  obtain ⟨p1, p2, p3, p4⟩ := hB p hp
  have e0 : nbA p 1 = (p.1, p.2 + 1) := rfl
  cases hb : B (nbA p 1) with
  | true =>
    refine ⟨1, hH.fr.black _ hb, ?_⟩
    constructor
    · intro h1; cases h1
    · rintro ⟨-, h2, -⟩; rw [hb] at h2; cases h2
  | false =>
    by_cases ht' : Trd e B (fun q => q = p ∨ Bef q p) (fun q => Bef q p) (p, ax e 1)
    · have := hH.m2 p (ax e 1) ht' (by rw [nb_ax]; exact hb)
      rw [nb_ax] at this
      rcases this with h2 | h2
      · refine ⟨255, h2, ?_⟩
        constructor
        · intro h3; cases h3
        · rintro ⟨-, -, h3⟩; exact absurd ht' h3
      · exfalso
        rcases h2 with ⟨q, h3, h4, h5⟩ | ⟨q, h3, h5⟩
        · have e5 : nbA q 3 = (q.1, q.2 - 1) := rfl
          rw [e0, e5, Prod.mk.injEq] at h5
          obtain ⟨-, q2, -⟩ := hB q h4.1
          rcases h3 with rfl | h3
          · omega
          · unfold Bef at h3; omega
        · have e5 : nbA q 1 = (q.1, q.2 + 1) := rfl
          rw [e0, e5, Prod.mk.injEq] at h5
          unfold Bef at h3; omega
    · have hy : p.2 < ht := by
        rcases Nat.lt_or_ge p.2 ht with h2 | h2
        · exact h2
        · exact absurd (bottom_traced hB hp (by omega) (fun q hq => hq)) ht'
      have hm : nbA p 1 ∈ raster w ht := mem_raster.2 (by rw [e0]; exact ⟨p1, p3, by show 1 ≤ p.2 + 1; omega, hy⟩)
      rcases hH.m0 _ hm hb with h2 | h2
      · exact ⟨0, h2, fun _ => ⟨hp, hb, ht'⟩, fun _ => rfl⟩
      · obtain ⟨r, j, h3, h4⟩ := hH.m1 _ hm h2
        exact absurd (marked_traced hB hp hb (fun _ => Iff.rfl) (fun _ => Iff.rfl) h3 h4) ht'

/-- State of the scan before pixel `p`. -/
structure PInv (c : Limits) (e : Bool) (B : Pix → Bool) (w ht : Nat) (bg lab : Gray) (h0 : Heap Int) (p : Pix)
    (done : List (Pix × Bool)) (l : Labeller) (h : Heap Int) : Prop where
  img : HInv e B w ht bg lab h0 h (Trd e B (fun q => Bef q p) (fun q => Bef q p))
      (Qof e B (fun q => Bef q p) (fun q => Bef q p)) (fun q => Bef q p)
  lbr : LInv c e B w ht bg lab l done
  trd : ∀ s ∈ done, Trd e B (fun q => Bef q p) (fun q => Bef q p) (startSt e s)

theorem bef_next {p q : Pix} : Bef q (p.1 + 1, p.2) ↔ q = p ∨ Bef q p := by
  obtain ⟨x, y⟩ := p
  obtain ⟨a, b⟩ := q
  unfold Bef
  simp only [Prod.mk.injEq]
  omega

theorem scanPixel_spec {l : Labeller} {pre post : List Pix} {p : Pix} (hs : raster w ht = pre ++ p :: post)
    (hP : PInv c e B w ht bg lab h0 p (starts e B pre) l h) (hsz : 8 * (w * ht) < P32) {fuel : Nat} (hf : 8 * (w * ht) ≤ fuel) :
    ∃ l' h', Labeller.scanPixel fuel lab p.1 p.2 (bg.addr p.1 p.2) (lab.addr (p.1 - 1) (p.2 - 1)) l h = .ok l' h' ∧
      PInv c e B w ht bg lab h0 (p.1 + 1, p.2) (starts e B (pre ++ [p])) l' h' := by
  classical
  obtain ⟨hH, hL, hT⟩ := hP
  have hB := hH.fr.fr
  have P : P32 = 4294967296 := rfl
  have hpm : p ∈ raster w ht := by rw [hs]; simp
  obtain ⟨p1, p3, p2, p4⟩ := mem_raster.1 hpm
  have small := idOf_small (e := e) (B := B) (w := w) (ht := ht) p
  have nextT : ∀ s, Trd e B (fun q => q = p ∨ Bef q p) (fun q => q = p ∨ Bef q p) s ↔
      Trd e B (fun q => Bef q (p.1 + 1, p.2)) (fun q => Bef q (p.1 + 1, p.2)) s :=
    trd_congr (fun q _ => bef_next.symm) (fun q _ => bef_next.symm)
  have nextQ : ∀ q, Qof e B (fun q => q = p ∨ Bef q p) (fun q => q = p ∨ Bef q p) q →
      Qof e B (fun q => Bef q (p.1 + 1, p.2)) (fun q => Bef q (p.1 + 1, p.2)) q :=
    fun q => Qof.mono (fun q => bef_next.2) (fun q => bef_next.2)
  have startsEq : starts e B (pre ++ [p]) = (starts e B pre ++ (if IsFirst e B p then [(p, true)] else [])) ++
      (if IsHole e B p then [(p, false)] else []) := by
    unfold starts
    rw [List.flatMap_append]
    simp [startsAt, List.append_assoc]
  cases hb : B p with
  | false =>
    obtain ⟨v, hv, hne⟩ := hH.fr.white p.1 p.2 (by omega) (by omega) hb
    have nf : ¬IsFirst e B p := fun hh => by rw [hh.1] at hb; cases hb
    have nh : ¬IsHole e B p := fun hh => by rw [hh.1] at hb; cases hb
    refine ⟨l, h, ?_, ?_, ?_, ?_⟩
    · unfold Labeller.scanPixel
      rw [hL.border, M.bind_ok (M.rd_run hv)]
      simp only [hne, ne_eq, not_false_eq_true, if_true]
      rfl
    · refine hH.congr (fun s => ?_) (fun q hq => nextQ q (hq.mono (fun _ => Or.inr) (fun _ => Or.inr))) (fun q hq => ?_)
      · rw [← nextT]
        refine trd_congr (fun q hq => ⟨Or.inr, fun hh => hh.resolve_left ?_⟩) (fun q hq => ⟨Or.inr, fun hh => hh.resolve_left ?_⟩) s
        · rintro rfl; exact nf hq
        · rintro rfl; rw [hb] at hq; cases hq
      · rw [bef_next]
        refine ⟨Or.inr, fun hh => hh.resolve_left ?_⟩
        rintro rfl; rw [hb] at hq; cases hq
    · rw [startsEq, if_neg nf, if_neg nh]; simpa using hL
    · rw [startsEq, if_neg nf, if_neg nh]
      intro s hs'
      rw [List.append_nil, List.append_nil] at hs'
      rw [← nextT]
      exact (hT s hs').mono (fun _ => Or.inr) (fun _ => Or.inr)
  | true =>
    have pos := idOf_pos (e := e) hB hb
    have hbit : h.cell bg.buf (bg.addr p.1 p.2) = some 1 := hH.fr.black p hb
    -- the label found
    obtain ⟨lbl, rl, hl1, hl2⟩ : ∃ lbl : Int, h.cell lab.buf (lab.addr (p.1 - 1) (p.2 - 1)) = some lbl ∧
        (toU32 lbl = 0 → ∀ j, ¬Trd e B (fun q => Bef q p) (fun q => Bef q p) (p, j)) ∧
        (toU32 lbl ≠ 0 → toU32 lbl = idOf e B w ht p ∧ ∃ j, Trd e B (fun q => Bef q p) (fun q => Bef q p) (p, j)) := by
      by_cases ht' : ∃ j, Trd e B (fun q => Bef q p) (fun q => Bef q p) (p, j)
      · have e1 : toU32 (idOf e B w ht p : Int) = idOf e B w ht p := by
          rw [toU32_of_nonneg (by omega) (by omega)]; omega
        exact ⟨_, hH.lbl p hpm hb (Or.inr ht'), fun h2 => by omega, fun _ => ⟨e1, ht'⟩⟩
      · refine ⟨0, hH.unl p hpm ?_, fun _ j hj => ht' ⟨j, hj⟩, fun h2 => absurd rfl h2⟩
        rintro ⟨-, h2 | h2⟩
        · exact Bef.irrefl h2
        · exact ht' h2
    -- the pixel above
    have al : bg.addr p.1 p.2 < P32 := hH.fr.bv.addr_lt32 (by rw [hH.fr.bw]; omega) (by rw [hH.fr.bh]; omega)
    have hst : w + 2 ≤ bg.stride := by rw [← hH.fr.bw]; exact hH.fr.bv.rowLe
    have hmul : p.2 * bg.stride = (p.2 - 1) * bg.stride + bg.stride := by
      rw [← Nat.succ_mul]; congr 1; omega
    have ea : sub32 (bg.addr p.1 p.2) bg.stride = bg.addr p.1 (p.2 - 1) := by
      rw [sub32_of_le (by unfold Gray.addr; omega) al]; unfold Gray.addr; omega
    obtain ⟨abv, ra, ha⟩ : ∃ abv : Int, h.cell bg.buf (bg.addr p.1 (p.2 - 1)) = some abv ∧ (abv ≠ 1 ↔ B (nbA p 3) = false) := by
      have e3 : nbA p 3 = (p.1, p.2 - 1) := rfl
      cases h3 : B (nbA p 3) with
      | true => exact ⟨1, hH.fr.black _ h3, by simp⟩
      | false =>
        rw [e3] at h3
        obtain ⟨v, a, b⟩ := hH.fr.white p.1 (p.2 - 1) (by omega) (by omega) h3
        exact ⟨v, a, by simp [b]⟩
    obtain ⟨abv', rab, hfirst⟩ : ∃ abv' : Int, (if toU32 lbl = 0 then M.rd bg.buf (sub32 (bg.addr p.1 p.2) bg.stride)
          else pure 1 : M Int Int) h = .ok abv' h ∧ ((toU32 lbl = 0 ∧ abv' ≠ 1) ↔ IsFirst e B p) := by
      by_cases h3 : toU32 lbl = 0
      · refine ⟨abv, by rw [if_pos h3, ea]; exact M.rd_run ra, ?_⟩
        constructor
        · rintro ⟨-, h4⟩
          exact unlabelled_first hB hb (ha.1 h4) (fun _ => id) (fun _ => id) (hl1 h3)
        · intro h4; exact ⟨h3, ha.2 (h4.above hB)⟩
      · refine ⟨1, by rw [if_neg h3]; rfl, ?_⟩
        constructor
        · rintro ⟨h4, -⟩; exact absurd h4 h3
        · intro h4
          obtain ⟨-, j, hj⟩ := hl2 h3
          exact absurd hj (first_untraced hB h4 j)
    -- when the pixel is neither labelled nor a first one
    have hleft : ∀ {F D : Pix → Prop}, (∀ q, Bef q p → F q) → (∀ q, Bef q p → D q) → ¬IsFirst e B p →
        (∀ j, ¬Trd e B F D (p, j)) → B (nbA p 2) = true := by
      intro F D hF hD nf hn
      cases h3 : B (nbA p 3) with
      | true => exact unlabelled_left hB hb h3 hF hD hn
      | false => exact absurd (unlabelled_first hB hb h3 hF hD hn) nf
    -- step 1
    have step1 : ∃ l1 h1, (if decide (toU32 lbl = 0 ∧ abv' ≠ 1) = true then Labeller.handleStep1 fuel l p.1 p.2 else pure l : M Int Labeller) h =
        .ok l1 h1 ∧
        HInv e B w ht bg lab h0 h1 (Trd e B (fun q => q = p ∨ Bef q p) (fun q => Bef q p))
          (Qof e B (fun q => q = p ∨ Bef q p) (fun q => Bef q p)) (fun q => Bef q p) ∧
        LInv c e B w ht bg lab l1 (starts e B pre ++ (if IsFirst e B p then [(p, true)] else [])) ∧
        (∀ s ∈ starts e B pre ++ (if IsFirst e B p then [(p, true)] else []),
          Trd e B (fun q => q = p ∨ Bef q p) (fun q => Bef q p) (startSt e s)) ∧
        ((if decide (toU32 lbl = 0 ∧ abv' ≠ 1) = true then wrap32 l1.contours.length else toU32 lbl) = idOf e B w ht p ∨
          ((if decide (toU32 lbl = 0 ∧ abv' ≠ 1) = true then wrap32 l1.contours.length else toU32 lbl) = 0 ∧
            h1.cell lab.buf (lab.addr (p.1 - 1) (p.2 - 1) - 1) = some (idOf e B w ht p : Int) ∧
            0 < lab.addr (p.1 - 1) (p.2 - 1))) := by
      by_cases hfp : IsFirst e B p
      · have hd : decide (toU32 lbl = 0 ∧ abv' ≠ 1) = true := decide_eq_true (hfirst.2 hfp)
        have hid : idOf e B w ht p = (starts e B pre).countP (fun s => s.2) + 1 := by
          rw [starts_count]; exact idOf_first hB hs hfp
        obtain ⟨l1, h1, a1, a2, a3, a4⟩ := step1_spec hL hH hsz hf hfp hid (fun d hd' ho =>
          first_untraced hB hfp _ ((hT d hd').orb ho))
        refine ⟨l1, h1, by rw [if_pos hd]; exact a1, ?_, by rw [if_pos hfp]; exact a2, ?_, ?_⟩
        · refine a3.congr (fun s => (trd_first hfp s).symm) ?_ (fun _ _ => Iff.rfl)
          rintro q (hq | rfl)
          · exact hq.mono (fun _ => Or.inr) (fun _ => id)
          · exact Or.inl ⟨p, Or.inl rfl, hfp, rfl⟩
        · rw [if_pos hfp]
          intro s hs'
          rcases List.mem_append.1 hs' with hs' | hs'
          · exact (hT s hs').mono (fun _ => Or.inr) (fun _ => id)
          · rw [List.mem_singleton.1 hs']
            exact (trd_first hfp _).2 (Or.inr (Orb.refl _))
        · left
          rw [if_pos hd, a4, wrap32_of_lt (by omega)]
      · have hd : ¬(decide (toU32 lbl = 0 ∧ abv' ≠ 1) = true) := fun hh => hfp (hfirst.1 (of_decide_eq_true hh))
        refine ⟨l, h, by rw [if_neg hd]; rfl, ?_, by rw [if_neg hfp, List.append_nil]; exact hL, ?_, ?_⟩
        · refine hH.congr (fun s => trd_congr (fun q hq => ⟨Or.inr, fun hh => hh.resolve_left ?_⟩) (fun _ _ => Iff.rfl) s)
            (fun q hq => hq.mono (fun _ => Or.inr) (fun _ => id)) (fun _ _ => Iff.rfl)
          rintro rfl; exact hfp hq
        · rw [if_neg hfp, List.append_nil]
          exact fun s hs' => (hT s hs').mono (fun _ => Or.inr) (fun _ => id)
        · rw [if_neg hd]
          by_cases h3 : toU32 lbl = 0
          · right
            exact ⟨h3, left_label hH hb (hleft (fun _ => id) (fun _ => id) hfp (hl1 h3)) (fun _ => id)⟩
          · exact Or.inl (hl2 h3).1
    obtain ⟨l1, h1, s1run, hH1, hL1, hT1, hlab⟩ := step1
    -- step 2
    obtain ⟨blw, rb, hhole⟩ := below_spec hb hH1
    have eb : wrap32 (bg.addr p.1 p.2 + bg.stride) = bg.addr p.1 (p.2 + 1) := by
      have : bg.addr p.1 (p.2 + 1) < P32 := hH.fr.bv.addr_lt32 (by rw [hH.fr.bw]; omega) (by rw [hH.fr.bh]; omega)
      have e1 : bg.addr p.1 p.2 + bg.stride = bg.addr p.1 (p.2 + 1) := by unfold Gray.addr; rw [Nat.succ_mul]; omega
      rw [e1, wrap32_of_lt this]
    have step2 : ∃ l2 h2, (if blw = 0 then Labeller.handleStep2 fuel l1 lab p.1 p.2 (lab.addr (p.1 - 1) (p.2 - 1))
          (if decide (toU32 lbl = 0 ∧ abv' ≠ 1) = true then wrap32 l1.contours.length else toU32 lbl)
          else pure l1 : M Int Labeller) h1 = .ok l2 h2 ∧
        HInv e B w ht bg lab h0 h2 (Trd e B (fun q => q = p ∨ Bef q p) (fun q => q = p ∨ Bef q p))
          (Qof e B (fun q => q = p ∨ Bef q p) (fun q => q = p ∨ Bef q p)) (fun q => Bef q p) ∧
        LInv c e B w ht bg lab l2 (starts e B (pre ++ [p])) ∧
        (∀ s ∈ starts e B (pre ++ [p]), Trd e B (fun q => q = p ∨ Bef q p) (fun q => q = p ∨ Bef q p) (startSt e s)) := by
      by_cases hh : IsHole e B p
      · have hid : idOf e B w ht p ≤ (starts e B pre ++ (if IsFirst e B p then [(p, true)] else [])).countP (fun s => s.2) := by
          obtain ⟨p0, f1, f2⟩ := exists_first (e := e) hB hb
          have hm : p0 ∈ pre ++ [p] := by
            have := first_mem hB f1
            rw [hs, List.mem_append, List.mem_cons] at this
            rcases this with h3 | h3 | h3
            · exact List.mem_append.2 (Or.inl h3)
            · exact List.mem_append.2 (Or.inr (List.mem_singleton.2 h3))
            · exact absurd ((split_order hs).2 _ h3) (f1.2 p f2)
          have := idOf_le hB (pre := pre ++ [p]) (post := post) (by rw [hs]; simp) f1 f2 hm
          rw [← starts_count, startsEq, List.countP_append] at this
          refine Nat.le_trans this ?_
          split <;> simp
        obtain ⟨l2, h2, a1, a2, a3⟩ := step2_spec hL1 hH1 hsz hf hb hh.2.1 hid
          (fun d hd' ho => hh.2.2 ((hT1 d hd').orb ho)) hlab
        refine ⟨l2, h2, by rw [if_pos (hhole.2 hh)]; exact a1, ?_, by rw [startsEq, if_pos hh]; exact a2, ?_⟩
        · refine a3.congr (fun s => (trd_lower hb hh.2.1 s).symm) ?_ (fun _ _ => Iff.rfl)
          rintro q (hq | rfl)
          · exact hq.mono (fun _ => id) (fun _ => Or.inr)
          · exact Or.inr ⟨p, Or.inl rfl, rfl⟩
        · rw [startsEq, if_pos hh]
          intro s hs'
          rcases List.mem_append.1 hs' with hs' | hs'
          · exact (hT1 s hs').mono (fun _ => id) (fun _ => Or.inr)
          · rw [List.mem_singleton.1 hs']
            exact (trd_lower hb hh.2.1 _).2 (Or.inr (Orb.refl _))
      · refine ⟨l1, h1, by rw [if_neg (fun h3 => hh (hhole.1 h3))]; rfl, ?_, by rw [startsEq, if_neg hh, List.append_nil]; exact hL1, ?_⟩
        · refine hH1.congr (fun s => ⟨fun h3 => h3.mono (fun _ => id) (fun _ => Or.inr), fun h3 => ?_⟩)
            (fun q hq => hq.mono (fun _ => id) (fun _ => Or.inr)) (fun _ _ => Iff.rfl)
          rcases h3 with h3 | ⟨q, rfl | a, b, b', d⟩
          · exact Or.inl h3
          · have : Trd e B (fun r => r = q ∨ Bef r q) (fun r => Bef r q) (q, ax e 1) := by
              by_contra hn; exact hh ⟨hb, b', hn⟩
            exact this.orb d
          · exact Or.inr ⟨q, a, b, b', d⟩
        · rw [startsEq, if_neg hh, List.append_nil]
          exact fun s hs' => (hT1 s hs').mono (fun _ => id) (fun _ => Or.inr)
    obtain ⟨l2, h2, s2run, hH2, hL2, hT2⟩ := step2
    have fin : ∀ h3, HInv e B w ht bg lab h0 h3 (Trd e B (fun q => q = p ∨ Bef q p) (fun q => q = p ∨ Bef q p))
          (Qof e B (fun q => q = p ∨ Bef q p) (fun q => q = p ∨ Bef q p)) (fun q => q = p ∨ Bef q p) →
        PInv c e B w ht bg lab h0 (p.1 + 1, p.2) (starts e B (pre ++ [p])) l2 h3 := fun h3 hH3 =>
      ⟨hH3.congr nextT nextQ (fun q _ => bef_next.symm), hL2, fun s hs' => (nextT _).1 (hT2 s hs')⟩
    -- the pixel is labelled already
    have done : (∃ j, Trd e B (fun q => q = p ∨ Bef q p) (fun q => q = p ∨ Bef q p) (p, j)) →
        HInv e B w ht bg lab h0 h2 (Trd e B (fun q => q = p ∨ Bef q p) (fun q => q = p ∨ Bef q p))
          (Qof e B (fun q => q = p ∨ Bef q p) (fun q => q = p ∨ Bef q p)) (fun q => q = p ∨ Bef q p) := by
      rintro ⟨j, hj⟩
      refine hH2.marked (Marked.refl h2 bg lab 0) (fun _ => id) hH2.good (fun _ => id) (fun _ hf => hf.elim)
        (fun q hq => ?_) (fun _ hf => hf.elim) (fun r j ht' _ => Or.inl ht')
      constructor
      · rintro ((rfl | h3) | h3)
        · exact Or.inl (Or.inr ⟨j, hj⟩)
        · exact Or.inl (Or.inl h3)
        · exact Or.inl (Or.inr h3)
      · rintro ((h3 | h3) | h3)
        · exact Or.inl (Or.inr h3)
        · exact Or.inr h3
        · exact h3.elim
    have runTo : Labeller.scanPixel fuel lab p.1 p.2 (bg.addr p.1 p.2) (lab.addr (p.1 - 1) (p.2 - 1)) l h =
        (if decide (toU32 lbl = 0 ∧ abv' ≠ 1) = false ∧ blw ≠ 0 then do
          Labeller.handleStep3 lab (lab.addr (p.1 - 1) (p.2 - 1))
          pure l2
        else pure l2 : M Int Labeller) h2 := by
      unfold Labeller.scanPixel
      rw [hL.border, M.bind_ok (M.rd_run hbit)]
      simp only [ne_eq, not_true, if_false]
      rw [M.bind_ok (M.rd_run rl), M.bind_ok rab, M.bind_ok s1run, hL1.border, eb, M.bind_ok (M.rd_run rb), M.bind_ok s2run]
    rw [runTo]
    by_cases h3 : decide (toU32 lbl = 0 ∧ abv' ≠ 1) = false ∧ blw ≠ 0
    · rw [if_pos h3]
      have nf : ¬IsFirst e B p := fun hh => by
        have := of_decide_eq_false h3.1
        exact this (hfirst.2 hh)
      by_cases ht' : ∃ j, Trd e B (fun q => q = p ∨ Bef q p) (fun q => q = p ∨ Bef q p) (p, j)
      · have hlv : h2.cell lab.buf (lab.addr (p.1 - 1) (p.2 - 1)) = some (idOf e B w ht p : Int) := hH2.lbl p hpm hb (Or.inr ht')
        refine ⟨l2, h2, ?_, fin h2 (done ht')⟩
        have : Labeller.handleStep3 lab (lab.addr (p.1 - 1) (p.2 - 1)) h2 = .ok () h2 := by
          unfold Labeller.handleStep3
          rw [M.bind_ok (M.rd_run hlv), if_neg (by omega)]
          rfl
        rw [M.bind_ok this]; rfl
      · have hlv : h2.cell lab.buf (lab.addr (p.1 - 1) (p.2 - 1)) = some 0 := by
          refine hH2.unl p hpm ?_
          rintro ⟨-, h4 | h4⟩
          · exact Bef.irrefl h4
          · exact ht' h4
        have hl := hleft (F := fun q => q = p ∨ Bef q p) (D := fun q => q = p ∨ Bef q p) (fun _ => Or.inr) (fun _ => Or.inr) nf
          (fun j hj => ht' ⟨j, hj⟩)
        obtain ⟨g1, g2⟩ := left_label hH2 hb hl (fun _ => id)
        have lal : lab.addr (p.1 - 1) (p.2 - 1) < P32 := hH.fr.lv.addr_lt32 (by rw [hH.fr.lw]; omega) (by rw [hH.fr.lh]; omega)
        have : Labeller.handleStep3 lab (lab.addr (p.1 - 1) (p.2 - 1)) h2 =
            .ok () (h2.setCell lab.buf (lab.addr (p.1 - 1) (p.2 - 1)) (idOf e B w ht p : Int)) := by
          unfold Labeller.handleStep3
          rw [M.bind_ok (M.rd_run hlv), if_pos rfl, sub32_of_le (by omega) lal, M.bind_ok (M.rd_run g1)]
          exact M.wr_run hlv
        refine ⟨l2, _, by rw [M.bind_ok this]; rfl, fin _ ?_⟩
        have hm := hH2.fr.label_step (Marked.refl h2 bg lab (idOf e B w ht p : Int)) (c := p) p1 p2 p3 p4
        refine hH2.marked hm (fun _ => id) hH2.good (fun _ => id) ?_ ?_ (fun _ hf => hf.elim) (fun r j ht' _ => Or.inl ht')
        · rintro q (hf | rfl)
          · exact hf.elim
          · exact ⟨hb, rfl⟩
        · intro q _
          constructor
          · rintro ((rfl | h4) | h4)
            · exact Or.inr (Or.inr rfl)
            · exact Or.inl (Or.inl h4)
            · exact Or.inl (Or.inr h4)
          · rintro ((h4 | h4) | (h4 | rfl))
            · exact Or.inl (Or.inr h4)
            · exact Or.inr h4
            · exact h4.elim
            · exact Or.inl (Or.inl rfl)
    · rw [if_neg h3]
      refine ⟨l2, h2, rfl, fin h2 (done ?_)⟩
      by_cases hfp : IsFirst e B p
      · exact ⟨ax e 3, Or.inl ⟨p, Or.inl rfl, hfp, Orb.refl _⟩⟩
      · have : blw = 0 := by
          by_contra h4
          exact h3 ⟨decide_eq_false (fun h5 => hfp (hfirst.1 h5)), h4⟩
        have hh := hhole.1 this
        exact ⟨ax e 1, Or.inr ⟨p, Or.inl rfl, hb, hh.2.1, Orb.refl _⟩⟩

end Boof
