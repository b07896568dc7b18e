import Verif.Spec.Part
import Verif.Proofs.Order
/-
Averages of parts of lines.
-/
namespace Boof

theorem localCount_part {r n o N x : Nat} (hn : o + n ≤ N) (hx : x < n) (hs : SeesSame r r n o N x) :
    localCount r n x = localCount r N (o + x) ∧ o + x - r = o + (x - r) := by
  obtain ⟨h1, h2⟩ := hs
  unfold localCount
  constructor
  · rcases h1 with h1 | h1 <;> rcases h2 with h2 | h2 <;> omega
  · omega

theorem localSum_part {K : Type} [Zero K] [Add K] {r n o N x : Nat} {v v' : Nat → K} (hn : o + n ≤ N) (hx : x < n) (hs : SeesSame r r n o N x)
    (hv : ∀ i, i < n → v' i = v (o + i)) : localSum r n v' x = localSum r N v (o + x) := by
  obtain ⟨e1, e2⟩ := localCount_part hn hx hs
  unfold localSum
  rw [← e1, e2]
  exact sumF_same (fun i hi => by rw [hv _ (nearLine_of hx hi).1, Nat.add_assoc])

theorem roundedMean_part {t : IntTy} {r n o N x : Nat} {v v' : Nat → Int} (hn : o + n ≤ N) (hx : x < n) (hs : SeesSame r r n o N x)
    (hv : ∀ i, i < n → v' i = v (o + i)) : roundedMean t r n v' x = roundedMean t r N v (o + x) := by
  unfold roundedMean
  rw [localSum_part hn hx hs hv, (localCount_part hn hx hs).1]

theorem exactMean_part {K : Type} [Field K] {r n o N x : Nat} {v v' : Nat → K} (hn : o + n ≤ N) (hx : x < n) (hs : SeesSame r r n o N x)
    (hv : ∀ i, i < n → v' i = v (o + i)) : exactMean r n v' x = exactMean r N v (o + x) := by
  unfold exactMean
  rw [localSum_part hn hx hs hv, (localCount_part hn hx hs).1]

section
variable {kw c n o N x : Nat}

theorem win_part (hk : c < kw) (hn : o + n ≤ N) (hx : x < n) (hs : SeesSame c (kw - 1 - c) n o N x) :
    firstIn c (o + x) = firstIn c x ∧ lastIn kw c N (o + x) - firstIn c x = lastIn kw c n x - firstIn c x := by
  obtain ⟨h1, h2⟩ := hs
  unfold firstIn lastIn
  constructor
  · omega
  · rcases h1 with h1 | h1 <;> rcases h2 with h2 | h2 <;> omega

theorem winSum_part {K : Type} [Zero K] [Add K] [Mul K] {d v v' : Nat → K} (hk : c < kw) (hn : o + n ≤ N) (hx : x < n)
    (hs : SeesSame c (kw - 1 - c) n o N x) (hv : ∀ i, i < n → v' i = v (o + i)) :
    winSum kw c d n v' x = winSum kw c d N v (o + x) := by
  obtain ⟨e1, e2⟩ := win_part hk hn hx hs
  unfold winSum
  rw [e1, e2]
  refine sumF_same (fun i hi => ?_)
  have h := (under_of hx hi).2
  rw [hv _ h.1]
  congr 2
  unfold firstIn at *
  omega

theorem winWeight_part {K : Type} [Zero K] [Add K] {d : Nat → K} (hk : c < kw) (hn : o + n ≤ N) (hx : x < n)
    (hs : SeesSame c (kw - 1 - c) n o N x) : winWeight kw c d n x = winWeight kw c d N (o + x) := by
  obtain ⟨e1, e2⟩ := win_part hk hn hx hs
  unfold winWeight
  rw [e1, e2]

theorem roundedAvg_part {t : IntTy} {d v v' : Nat → Int} (hk : c < kw) (hn : o + n ≤ N) (hx : x < n)
    (hs : SeesSame c (kw - 1 - c) n o N x) (hv : ∀ i, i < n → v' i = v (o + i)) :
    roundedAvg t kw c d n v' x = roundedAvg t kw c d N v (o + x) := by
  unfold roundedAvg
  rw [winSum_part hk hn hx hs hv, winWeight_part hk hn hx hs]

theorem exactAvg_part {K : Type} [Field K] {d v v' : Nat → K} (hk : c < kw) (hn : o + n ≤ N) (hx : x < n)
    (hs : SeesSame c (kw - 1 - c) n o N x) (hv : ∀ i, i < n → v' i = v (o + i)) :
    exactAvg kw c d n v' x = exactAvg kw c d N v (o + x) := by
  unfold exactAvg
  rw [winSum_part hk hn hx hs hv, winWeight_part hk hn hx hs]
end

/-! ### Plain convolutions -/

section
variable {V S : Type}

theorem foldO_same {α : Type} {n : Nat} {s : α} {f g : Nat → α → Option α} (h : ∀ i, i < n → ∀ a, f i a = g i a) : foldO n s f = foldO n s g := by
  induction n with
  | zero => rfl
  | succ n ih =>
    show (foldO n s f).bind (f n) = (foldO n s g).bind (g n)
    rw [ih (fun i hi => h i (by omega)), show f n = g n from funext (fun a => h n (by omega) a)]

theorem ext_in (b : Border V) {w ht : Nat} (f : Nat → Nat → V) {x y : Nat} (hx : x < w) (hy : y < ht) :
    b.ext w ht f x y = f x y := by
  cases b with
  | extend => simp only [Border.ext]; congr 1 <;> unfold clampTo <;> omega
  | reflect =>
    have h1 : mirrorTo w x = x := Option.some.inj ((Border.reflect : Border V).coord_in hx)
    have h2 : mirrorTo ht y = y := Option.some.inj ((Border.reflect : Border V).coord_in hy)
    simp only [Border.ext, h1, h2]
  | wrap =>
    have h1 : wrapTo w x = x := Option.some.inj ((Border.wrap : Border V).coord_in hx)
    have h2 : wrapTo ht y = y := Option.some.inj ((Border.wrap : Border V).coord_in hy)
    simp only [Border.ext, h1, h2]
  | value c => simp only [Border.ext]; rw [if_pos (by omega)]; rfl

variable {b b' : Border V} {w ht W H ox oy : Nat} {f g : Nat → Nat → V} {kw o x y : Nat}

theorem ext_part (p : PartOf w ht g ox oy W H f) {i j : Int} (h0 : 0 ≤ i) (h1 : i < w) (h2 : 0 ≤ j) (h3 : j < ht) :
    b'.ext w ht g i j = b.ext W H f (ox + i) (oy + j) := by
  obtain ⟨i, rfl⟩ := Int.eq_ofNat_of_zero_le h0
  obtain ⟨j, rfl⟩ := Int.eq_ofNat_of_zero_le h2
  have pw := p.width
  have ph := p.height
  rw [ext_in b' g (by omega) (by omega), p.same i j (by omega) (by omega)]
  exact (ext_in b f (by omega) (by omega)).symm

theorem rowAt_part (A : Arith V S) (c : Nat → S) (p : PartOf w ht g ox oy W H f) (hy : y < ht) (h1 : o ≤ x) (h2 : x + kw ≤ w + o) :
    rowAt A kw o c (b'.ext w ht g) x y = rowAt A kw o c (b.ext W H f) (ox + x) (oy + y) := by
  unfold rowAt
  refine foldO_same (fun k hk a => ?_)
  rw [ext_part (b := b) p (by omega) (by omega) (by omega) (by omega)]
  congr 2 <;> (push_cast; ring)

theorem colAt_part (A : Arith V S) (c : Nat → S) (p : PartOf w ht g ox oy W H f) (hx : x < w) (h1 : o ≤ y) (h2 : y + kw ≤ ht + o) :
    colAt A kw o c (b'.ext w ht g) x y = colAt A kw o c (b.ext W H f) (ox + x) (oy + y) := by
  unfold colAt
  refine foldO_same (fun k hk a => ?_)
  rw [ext_part (b := b) p (by omega) (by omega) (by omega) (by omega)]
  congr 2 <;> (push_cast; ring)

theorem boxAt_part (A : Arith V S) (c : Nat → Nat → S) (p : PartOf w ht g ox oy W H f) (h1 : o ≤ x) (h2 : x + kw ≤ w + o) (h3 : o ≤ y)
    (h4 : y + kw ≤ ht + o) : boxAt A kw o c (b'.ext w ht g) x y = boxAt A kw o c (b.ext W H f) (ox + x) (oy + y) := by
  unfold boxAt
  refine foldO_same (fun j hj a => foldO_same (fun i hi a => ?_))
  rw [ext_part (b := b) p (by omega) (by omega) (by omega) (by omega)]
  congr 2 <;> (push_cast; ring)

end

end Boof
