import Verif.Proofs.ThreadContour
import Verif.Props.ThreadParts
import Verif.Props.Contour
/-
C125: contours found by several threads at the same time.
-/
namespace Boof
open M
variable {V : Type}

/-- Calls of any functions made at the same time, each of which would return `a i` and leave memory `e i` if it were the only one.  If no
call writes a cell which another one accesses, then however their accesses are interleaved, no access is undefined, there is never a data
race, a thread which has made its `N i` accesses has returned, it returned `a i`, and then the cells it may access are as in `e i`; cells
which no call writes are as before. -/
theorem C125_results {ι α : Type} [DecidableEq ι] {p : ι → Accesses V α} {S M : ι → Nat → Nat → Prop} {P : ι → α → Prop} {h : Heap V}
    {a : ι → α} {e : ι → Heap V} (he : ∀ i, (p i).run h = .ok (a i) (e i)) (ht : ∀ i, (p i).On (S i) (M i) (P i) h)
    (hSM : ∀ i b k, M i b k → S i b k) (hd : ∀ i j, i ≠ j → ∀ b k, M i b k → ¬S j b k) :
    ∃ N : ι → Nat, ∀ l : List ι, ∃ (q : ι → Accesses V α) (h' : Heap V), schedule l p h = some (q, h') ∧ ¬Race q ∧
      (∀ i, N i ≤ l.count i → ∃ r, q i = .done r) ∧
      (∀ i r, q i = .done r → r = a i ∧ ∀ b k, S i b k → h'.cell b k = (e i).cell b k) ∧
      (∀ b k, (∀ i, ¬M i b k) → h'.cell b k = h.cell b k) := by
  refine ⟨fun i => (p i).length h, fun l => ?_⟩
  obtain ⟨q, h', s', e1, r1, l1, k1, a1⟩ := schedule_parts (R := S) (W := M)
    (P := P) (a := a) (e := e) hSM hd l (p := p) (h := h) (s := fun _ => h) (fun i =>
      ⟨fun _ _ _ => rfl, he i, ht i, .refl h, Accesses.run_alike (he i)⟩)
  refine ⟨q, h', e1, ?_, fun i hi => ?_, fun i g hg => ?_, k1⟩
  · rintro ⟨i, j, hij, b, k, w, w', n1, n2, hw⟩
    obtain ⟨a1, w1⟩ := (r1 i).access (hSM i) n1
    obtain ⟨a2, w2⟩ := (r1 j).access (hSM j) n2
    rcases hw with hw | hw
    · exact hd i j hij b k (w1 hw) a2
    · exact hd j i (Ne.symm hij) b k (w2 hw) a1
  · exact ⟨a i, ((r1 i).ended ((l1 i).trans (Nat.sub_eq_zero_of_le hi))).1⟩
  · have hrun := (r1 i).run
    rw [hg] at hrun
    have hres : Res.ok g (s' i) = Res.ok (a i) (e i) := hrun
    injection hres with eg es
    exact ⟨eg, fun b k hS => by rw [← es]; exact ((r1 i).same b k hS).symm⟩

/-- The arrays which a call of `process` writes: those of the label image and of the finder's own image. -/
def Labeller.Writes (l : Labeller) (labeled : Gray) (b : Nat) : Prop := b = l.border.buf ∨ b = labeled.buf

/-- The arrays which a call of `process` accesses. -/
def Labeller.Uses (l : Labeller) (binary labeled : Gray) (b : Nat) : Prop := b = binary.buf ∨ l.Writes labeled b

/-- Contours found by several threads at the same time, each with its own finder and label image; several threads may read the same
picture.  The finders have worked on pictures of these sizes before, so that nothing is allocated.  However the accesses are interleaved,
no access is undefined, there is never a data race, every thread returns, and it returns the finder and the label image which the call
alone would return; the label image then has the labels of the components of its picture, and only label images and the finders' own
images change. -/
theorem C125_contours {ι : Type} [DecidableEq ι] {l : ι → Labeller} {binary labeled : ι → Gray} {f : ι → Nat → Nat → Int} {fuel : Nat}
    {h : Heap Int} (hl : ∀ i, Labeller.Reachable h (l i)) (ha : ∀ i, (l i).Accepts h (binary i) (labeled i) (f i) fuel)
    (hs : ∀ i, (labeled i).width = (binary i).width ∧ (labeled i).height = (binary i).height)
    (hb : ∀ i, (l i).border.width = (binary i).width + 2 ∧ (l i).border.height = (binary i).height + 2)
    (hd : ∀ i j, i ≠ j → ∀ b, (l i).Writes (labeled i) b → ¬(l j).Uses (binary j) (labeled j) b) :
    ∃ p : ι → Accesses Int (Labeller × Gray), (∀ i k, (p i).run k = (l i).process fuel (binary i) (labeled i) k) ∧
      ∃ N : ι → Nat, ∀ s : List ι, ∃ (q : ι → Accesses Int (Labeller × Gray)) (h' : Heap Int), schedule s p h = some (q, h') ∧ ¬Race q ∧
        (∀ i, N i ≤ s.count i → ∃ r, q i = .done r) ∧
        (∀ i r, q i = .done r → (∃ k, (l i).process fuel (binary i) (labeled i) h = .ok r k ∧
            ∀ b c, (l i).Uses (binary i) (labeled i) b → h'.cell b c = k.cell b c) ∧
          r.2 = labeled i ∧
          ∃ g, (labeled i).Shows h' g ∧ Labelling (l i).rule (binary i).width (binary i).height (f i) g r.1.contours.length) ∧
        (∀ b c, (∀ i, ¬(l i).Writes (labeled i) b) → h'.cell b c = h.cell b c) := by
  have hf : ∀ i, Fine (fun b _ => (l i).Uses (binary i) (labeled i) b) (fun b _ => (l i).Writes (labeled i) b) (fun r => r.2 = labeled i)
      ((l i).process fuel (binary i) (labeled i)) := fun i => by
    have hz := (ha i).size
    have h1 : (binary i).width + 2 ≤ ((binary i).width + 2) * ((binary i).height + 2) := Nat.le_mul_of_pos_right _ (Nat.succ_pos _)
    have h2 : (binary i).height + 2 ≤ ((binary i).width + 2) * ((binary i).height + 2) := Nat.le_mul_of_pos_left _ (Nat.succ_pos _)
    exact Fine.process (fun _ => .inr (.inl rfl)) (fun _ => .inl rfl) (fun _ => .inr (.inr rfl)) (fun _ => .inr rfl) fuel rfl rfl
      (fun _ => .inl rfl) (hs i).1 (hs i).2 (hb i).1 (hb i).2 (by omega) (by omega)
  choose p hp ho using hf
  have hok := fun i => label_run (hl i) (ha i)
  choose a e he _ using hok
  refine ⟨p, hp, ?_⟩
  obtain ⟨N, hN⟩ := C125_results (p := p) (S := fun i b _ => (l i).Uses (binary i) (labeled i) b)
    (M := fun i b _ => (l i).Writes (labeled i) b) (h := h) (a := a) (e := e) (fun i => (hp i h).trans (he i)) (fun i => (ho i).on h)
    (fun i b _ hw => .inr hw) (fun i j hij b _ hw => hd i j hij b hw)
  refine ⟨N, fun s => ?_⟩
  obtain ⟨q, h', e1, e2, e3, e4, e5⟩ := hN s
  refine ⟨q, h', e1, e2, e3, fun i r hr => ?_, fun b c hb => e5 b c hb⟩
  obtain ⟨rfl, hc⟩ := e4 i r hr
  have hp' := label_done (hl i) (ha i) (show _ = Res.ok ((a i).1, (a i).2) _ from he i)
  have hlab : (a i).2 = labeled i := (hp'.inPlace (hs i).1 (hs i).2).1
  obtain ⟨g, hg, hL⟩ := C62_labels (hl i) (ha i) (show _ = Res.ok ((a i).1, (a i).2) _ from he i)
  rw [hlab] at hg
  refine ⟨⟨e i, he i, fun b c hu => hc b c hu⟩, hlab, g, fun x y hx hy => ?_, hL⟩
  rw [← hg x y hx hy]
  exact hc _ _ (.inr (.inr rfl))

/-! ## A concrete case

Two finders which have both worked on a picture of two pixels read it again at the same time. -/

def pairPicture : Gray := ⟨0, 4, 2, 2, 0, 2, false⟩
def pairLabels (i : Bool) : Gray := ⟨if i then 2 else 1, 4, 2, 2, 0, 2, false⟩
def pairValues (x y : Nat) : Int := (([1, 0, 0, 1] : List Int)[y * 2 + x]?).getD 0
def pairNew (b : Nat) : Labeller := { demoLabeller .eight with border := ⟨b, 0, 0, 0, 0, 0, false⟩ }
def pairMarks : List Int := [255, 255, 255, 0, 255, 1, 255, 255, 255, 255, 1, 255, 0, 255, 255, 255]
def pairHeap1 : Heap Int := ⟨[some [1, 0, 0, 1], some [0, 0, 0, 0], some [0, 0, 0, 0], some []]⟩
def pairHeap2 : Heap Int := ⟨[some [1, 0, 0, 1], some [1, 0, 0, 1], some [0, 0, 0, 0], none, some pairMarks]⟩
def pairHeap3 : Heap Int := ⟨pairHeap2.bufs ++ [some []]⟩
def pairHeap4 : Heap Int := ⟨[some [1, 0, 0, 1], some [1, 0, 0, 1], some [1, 0, 0, 1], none, some pairMarks, none, some pairMarks]⟩
def pairBorder (b : Nat) : Gray := ⟨b, 16, 4, 4, 0, 4, false⟩

theorem pair_accepts {h : Heap Int} {l : Labeller} (i : Bool) (hv : pairPicture.Valid h) (h0 : h.get 0 = some [1, 0, 0, 1])
    (hw : (pairLabels i).Valid h) (hb : 2 < l.border.buf) : l.Accepts h pairPicture (pairLabels i) pairValues 32 where
  valid := hv
  shows := by
    have e : ∀ x, x < 2 → ∀ y, y < 2 → ([1, 0, 0, 1] : List Int)[pairPicture.addr x y]? = some (pairValues x y) := by decide
    intro x y hx hy
    show (h.get 0).bind _ = _
    rw [h0]
    exact e x hx y hy
  bits := by
    have e : ∀ x, x < 2 → ∀ y, y < 2 → pairValues x y = 0 ∨ pairValues x y = 1 := by decide
    exact fun x y hx hy => e x hx y hy
  size := by decide
  labelValid := hw
  labelShape := Or.inl rfl
  labelStride := by cases i <;> decide
  apart := Or.inl (by cases i <;> decide)
  foreign := ⟨by cases i <;> simp [pairLabels] <;> omega, by unfold pairPicture; dsimp only; omega⟩
  fuelEnough := by decide

/-- `l` was constructed and has processed the picture: the rest of memory and its own image. -/
theorem pair_ran {h k : Heap Int} {l : Labeller} {b : Nat} {i : Bool} (hl : Labeller.Reachable h l)
    (ha : l.Accepts h pairPicture (pairLabels i) pairValues 32)
    (hc : (match l.process 32 pairPicture (pairLabels i) h with | .ok r k' => decide (r.1.border = pairBorder b ∧ k' = k) | _ => false) = true) :
    ∃ l', Labeller.Reachable k l' ∧ l'.border = pairBorder b := by
  obtain ⟨l', lab, h', e, -⟩ := C67_process_succeeds hl ha
  rw [e] at hc
  obtain ⟨e1, e2⟩ := of_decide_eq_true hc
  exact ⟨l', e2 ▸ .process hl ha e, e1⟩

theorem pair_ready : ∃ l : Bool → Labeller, (∀ i, Labeller.Reachable pairHeap4 (l i)) ∧ (l false).border = pairBorder 4 ∧
    (l true).border = pairBorder 6 := by
  obtain ⟨l1, r1, b1⟩ := pair_ran (b := 4) (k := pairHeap2) (i := false)
    (.new (rule := .eight) (junk := demoJunk) (h := ⟨pairHeap1.bufs.take 3⟩) (h' := pairHeap1) (l := pairNew 3) rfl)
    (pair_accepts false (by decide) rfl (by decide) (by decide)) (by decide +kernel)
  obtain ⟨l2, r2, b2⟩ := pair_ran (b := 6) (k := pairHeap4) (i := true)
    (.new (rule := .eight) (junk := demoJunk) (h := pairHeap2) (h' := pairHeap3) (l := pairNew 5) rfl)
    (pair_accepts true (by decide) rfl (by decide) (by decide)) (by decide +kernel)
  refine ⟨fun i => if i then l2 else l1, fun i => ?_, b1, b2⟩
  cases i
  · refine r1.elsewhere (fun c => ?_) ?_
    · rw [b1]; rfl
    · rw [b1]; rfl
  · exact r2

example : ∃ l : Bool → Labeller, (∀ i, Labeller.Reachable pairHeap4 (l i)) ∧
    (∀ i, (l i).Accepts pairHeap4 pairPicture (pairLabels i) pairValues 32) ∧
    (∀ i, (pairLabels i).width = pairPicture.width ∧ (pairLabels i).height = pairPicture.height) ∧
    (∀ i, (l i).border.width = pairPicture.width + 2 ∧ (l i).border.height = pairPicture.height + 2) ∧
    ∀ i j, i ≠ j → ∀ b, (l i).Writes (pairLabels i) b → ¬(l j).Uses pairPicture (pairLabels j) b := by
  obtain ⟨l, hr, b0, b1⟩ := pair_ready
  refine ⟨l, hr, fun i => pair_accepts i (by decide) rfl (by cases i <;> decide) ?_, fun i => by cases i <;> decide, fun i => ?_, ?_⟩
  · cases i
    · rw [b0]; decide
    · rw [b1]; decide
  · cases i
    · rw [b0]; decide
    · rw [b1]; decide
  · intro i j hij b hw hu
    unfold Labeller.Uses Labeller.Writes at hu
    unfold Labeller.Writes at hw
    cases i <;> cases j <;> simp only [b0, b1, pairLabels, pairPicture, pairBorder, ne_eq, not_true_eq_false, Bool.false_eq_true, if_true, if_false] at hij hw hu <;> omega

end Boof
