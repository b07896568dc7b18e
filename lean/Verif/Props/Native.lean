import Verif.Proofs.Native
import Verif.Props.BinaryOps
import Verif.Props.Otsu
import Verif.Props.Blocks
import Verif.Props.Blur
import Verif.Props.Convolve
import Verif.Props.Normalized
/-
C74: native code called from Java.  `JavaEffect` (Spec/Native.lean) says what Java sees: the output image shows the picture, no
other element of any array has changed, and no array is left pinned.  All of this holds whether the virtual machine hands out
the arrays themselves or copies of them (`c1`, `c2`, `c3`), and whatever else is pinned.
-/
namespace Boof
open M OtsuSpec
variable {V S : Type}

/-! ## Threshold filters -/

/-- `NativeGlobalFixed.process`. -/
theorem C74_globalFixed {h : Heap V} {ji jo : JImage} {f : Nat → Nat → V} (ha : JArgs h ji jo f) (le gt : V → V → Bool)
    (bit : Bool → V) (z thr : V) (down c1 c2 : Bool) (pins : List Pin) :
    ∃ s', nativeThreshold z (fun i o => ThresholdOps.globalFixed le gt bit z thr down i o >>= fun o => pure ((), o)) ji jo c1 c2
        ⟨h, pins⟩ = .ok (some ()) s' ∧
      JavaEffect ⟨h, pins⟩ s' (fun _ => False) jo (fun x y => bit (if down then le (f x y) thr else gt (f x y) thr)) := by
  obtain ⟨r, s', F, rfl, e, hJ, -⟩ := nativeThreshold_run z ha.input ha.output ha.apart ha.width ha.height
    (fun _ c => c.elim) (fun _ c => c.elim) ha.shows
    (process := fun i o => ThresholdOps.globalFixed le gt bit z thr down i o >>= fun o => pure ((), o))
    (Op2.plain (own := fun _ => False) (F := fun x y => bit (if down then le (f x y) thr else gt (f x y) thr))
      (fun h1 i o _ _ vi vo ew eh ew' eh' _ _ _ _ hne _ _ hf => by
        obtain ⟨o', h2, e, p, -⟩ := C33_threshold le gt bit z thr down vi vo hf (Or.inr ⟨by omega, by omega⟩) (Or.inr (Or.inl hne))
        obtain ⟨q1, q2⟩ := p.inPlace (by omega) (by omega)
        exact ⟨o', h2, e, q1, q2⟩)) c1 c2 pins
  exact ⟨s', e, hJ⟩

section
variable (K : Type) [Field K] [LinearOrder K] [IsStrictOrderedRing K] [FloorRing K]

/-- `NativeGlobalOtsu.process` for pixels `0 .. hi` (8 bit images: `hi = 255`). -/
theorem C74_globalOtsu {t : IntTy} (ht : t = U8 ∨ t = U16 ∨ t = S16 ∨ t = S32) {h : Heap Int} {ji jo : JImage}
    {f : Nat → Nat → Int} (ha : JArgs h ji jo f) {hi : Int} (hhi : t.InRange hi) (hle : 0 ≤ hi)
    (hr : ∀ x y : Nat, (x : Int) < ji.width → (y : Int) < ji.height → 0 ≤ f x y ∧ f x y ≤ hi) (hrange : 1 + hi ≤ 2147483647)
    (down : Bool) (junk : Nat → Int) (c1 c2 : Bool) (pins : List Pin) :
    ∃ (v : Nat) (s' : Jvm Int), nativeThreshold 0 (fun i o => ThresholdOps.globalOtsu K t junk 0 hi down i o >>= fun o => pure ((), o)) ji jo c1 c2
        ⟨h, pins⟩ = .ok (some ()) s' ∧
      IsOtsu K (1 + hi).toNat (fun k => pixelCount ji.width.toNat ji.height.toNat f k) v ∧
      JavaEffect ⟨h, pins⟩ s' (fun _ => False) jo
        (fun x y => if (down = true ∧ f x y ≤ v) ∨ (down = false ∧ f x y > v) then 1 else 0) := by
  have hop : Op2 h (fun _ => False) ji.width.toNat ji.height.toNat f
      (fun F => ∃ v : Nat, IsOtsu K (1 + hi).toNat (fun k => pixelCount ji.width.toNat ji.height.toNat f k) v ∧
        F = fun x y => if (down = true ∧ f x y ≤ v) ∨ (down = false ∧ f x y > v) then 1 else 0)
      (fun i o => ThresholdOps.globalOtsu K t junk 0 hi down i o >>= fun o => pure ((), o)) (fun _ _ => True) := by
    intro h1 i o _ _ vi vo ew eh ew' eh' _ _ _ _ hne _ _ hf
    obtain ⟨v, o', h2, e, hO, p⟩ := C35_zero_min (K := K) ht vi vo hf hhi hle (fun x y hx hy => hr x y (by omega) (by omega)) hrange
      (Or.inr ⟨by omega, by omega⟩) (Or.inr (Or.inl hne)) down junk
    rw [ew, eh] at hO
    obtain ⟨rfl, pt⟩ := p.inPlace (by omega) (by omega)
    refine ⟨(), h2, _, ⟨v, hO, rfl⟩, (M.bind_ok e).trans rfl, ?_, Nat.le_of_eq pt.next.symm, ?_, fun b _ _ => pt.alive b,
      fun _ _ => trivial⟩
    · intro x y hx hy
      rw [pt.pix x y hx hy]; rfl
    · intro b k _ _ hpx
      exact pt.frame b k (fun x y hx hy => hpx x y (by omega) (by omega))
  obtain ⟨r, s', F, ⟨v, hO, rfl⟩, e, hJ, -⟩ := nativeThreshold_run 0 ha.input ha.output ha.apart ha.width ha.height
    (fun _ c => c.elim) (fun _ c => c.elim) ha.shows hop c1 c2 pins
  exact ⟨v, s', e, hO, hJ⟩

end

section
variable {K : Type} [Field K] [LinearOrder K] [IsStrictOrderedRing K] [FloorRing K]

/-- From the effect of thresholding with two storage images to the contract of a native call. -/
theorem op2_local {h : Heap V} {s1 s2 : Gray} {ji jo : JImage} (hk : Kept h s1 s2 ji jo) {w ht : Nat} {f F : Nat → Nat → V}
    {process : Gray → Gray → M V (Gray × Gray × Gray)}
    (hop : ∀ (h1 : Heap V) (i o : Gray), i.Valid h1 → o.Valid h1 → s1.Valid h1 → s2.Valid h1 → i.width = w → i.height = ht →
      o.width = w → o.height = ht → i.dataLength < 2147483648 → i.buf ≠ o.buf → i.buf ≠ s1.buf → i.buf ≠ s2.buf →
      s1.buf ≠ o.buf → s2.buf ≠ o.buf → i.Shows h1 f →
      ∃ out st1 st2 h', process i o h1 = .ok (out, st1, st2) h' ∧ Thresholded h1 h' o out s1 st1 s2 st2 w ht F ∧
        (st2.dataLength = s2.dataLength ∨ st2.dataLength = w * ht))
    (hja : ∀ a, ji.data = some a ∨ jo.data = some a → a < h.next) :
    Op2 h (fun b => b = s1.buf ∨ b = s2.buf) w ht f (· = F)
      (fun i o => process i o >>= fun r => pure ((r.2.1, r.2.2), r.1)) (fun r h' => Kept h' r.1 r.2 ji jo ∧
        (r.1.width = w ∧ r.1.height = ht ∧ r.2.width = w ∧ r.2.height = ht) ∧ (r.1.buf = s1.buf ∨ h.next ≤ r.1.buf) ∧
        (r.2.buf = s2.buf ∨ h.next ≤ r.2.buf) ∧ (r.2.dataLength = s2.dataLength ∨ r.2.dataLength = w * ht)) := by
  obtain ⟨v1, v2, o1, o2, n12, hj⟩ := hk
  intro h1 i o hn hfr vi vo ew eh ew' eh' _ _ hl _ hne hi ho hf
  have tr : ∀ {g : Gray}, g.Valid h → g.Valid h1 := fun {g} hv => by
    have hlt := hv.lt_next
    refine hv.transfer (by rw [hfr _ hlt]; exact hv.live) (fun k hk => ?_)
    rw [cell_congr (hfr _ hlt)]
    exact hv.cells k hk
  have i1 : i.buf ≠ s1.buf := fun c => hi (Or.inl c)
  have i2 : i.buf ≠ s2.buf := fun c => hi (Or.inr c)
  have p1 : s1.buf ≠ o.buf := fun c => ho (Or.inl c.symm)
  have p2 : s2.buf ≠ o.buf := fun c => ho (Or.inr c.symm)
  obtain ⟨out, st1, st2, h2, e, T, hlen⟩ := hop h1 i o vi vo (tr v1) (tr v2) ew eh ew' eh' hl hne i1 i2 p1 p2 hf
  obtain ⟨rfl, hin⟩ := T.inPlace ew' eh'
  refine ⟨(st1, st2), h2, F, rfl, (M.bind_ok e).trans rfl, ?_, T.nextLe, ?_, ?_, ?_⟩
  · intro x y hx hy
    exact T.pix x y (by omega) (by omega)
  · intro b k hb hnb hpx
    by_cases c : b = out.buf
    · subst c
      exact hin k (fun x y hx hy e => hpx x y hx hy ⟨rfl, e⟩)
    · exact T.frame b k c (fun c => hnb (Or.inl c)) (fun c => hnb (Or.inr c)) hb
  · intro b hb hnb
    by_cases c : b = out.buf
    · subst c
      rw [Option.isSome_iff_exists.mpr (isSome_get T.valid.live), Option.isSome_iff_exists.mpr (isSome_get vo.live)]
    · exact T.alive b c (fun c => hnb (Or.inl c)) (fun c => hnb (Or.inr c)) hb
  · intro h3 h3g
    have tr3 : ∀ {a a' : Gray}, (a = s1 ∨ a = s2) → Stored h1 h2 a a' w ht → a'.Valid h3 := fun {a a'} ha hs => by
      have hg : h3.get a'.buf = h2.get a'.buf := by
        refine h3g _ ?_
        rcases hs.buf with c | c
        · rw [c]; rcases ha with rfl | rfl
          · exact Or.inl (Or.inl rfl)
          · exact Or.inl (Or.inr rfl)
        · exact Or.inr c
      refine hs.valid.transfer (by rw [hg]; exact hs.valid.live) (fun k hk => ?_)
      rw [cell_congr hg]
      exact hs.valid.cells k hk
    have jd : ∀ {a a' : Gray}, (a = s1 ∨ a = s2) → Stored h1 h2 a a' w ht → ji.data ≠ some a'.buf ∧ jo.data ≠ some a'.buf :=
      fun {a a'} ha hs => by
        rcases hs.buf with c | c
        · rw [c]; exact hj a ha
        · exact ⟨fun e => by have := hja _ (Or.inl e); omega, fun e => by have := hja _ (Or.inr e); omega⟩
    refine ⟨⟨tr3 (Or.inl rfl) T.first, tr3 (Or.inr rfl) T.second, T.first.sub.trans o1, T.second.sub.trans o2, T.ne.2.2, ?_⟩,
      ⟨T.first.width, T.first.height, T.second.width, T.second.height⟩, T.first.buf.imp id (fun c => Nat.le_trans hn c),
      T.second.buf.imp id (fun c => Nat.le_trans hn c), hlen⟩
    rintro g (rfl | rfl)
    · exact jd (Or.inl rfl) T.first
    · exact jd (Or.inr rfl) T.second

theorem JArgs.lt {h : Heap V} {ji jo : JImage} {f : Nat → Nat → V} (ha : JArgs h ji jo f) :
    ∀ a, ji.data = some a ∨ jo.data = some a → a < h.next := by
  obtain ⟨ai, li, hai, hli, -⟩ := ha.input.array
  obtain ⟨ao, lo, hao, hlo, -⟩ := ha.output.array
  have := Heap.lt_next_of_get hli
  have := Heap.lt_next_of_get hlo
  rintro a (c | c)
  · rw [hai] at c; cases c; assumption
  · rw [hao] at c; cases c; assumption

/-- `NativeLocalMean.process` for integral pixels; `s1`, `s2` are the images inside the filter, and afterwards the filter can be
used again.  MISSING for the full property: `hshape`, as in C36. -/
theorem C74_localMean_partial {t : IntTy} (ht : t ∈ [U8, U16, S16, S32, S64]) (junk : Nat → Int) {h : Heap Int}
    {ji jo : JImage} {s1 s2 : Gray} {f : Nat → Nat → Int} (ha : JArgs h ji jo f) (hk : Kept h s1 s2 ji jo)
    {width : ConfigLength K} {scale : K} {down : Bool} {n : Nat} {P : Int}
    (hn : ∀ h : Heap Int, width.computeI ((min ji.width.toNat ji.height.toNat : Nat) : K) h = .ok n h) (hn2 : 2 ≤ n)
    (hb : ji.width.toNat + (n + 1) ≤ 2147483648) (hb2 : ji.height.toNat + (n + 1) ≤ 2147483648)
    (hls : s2.dataLength < 2147483648)
    (hshape : 2 * (n / 2) + 1 ≤ ji.height.toNat ∨ ji.width.toNat < 2 * (n / 2) + 1) (hP : 0 ≤ P) (hPh : P ≤ t.hi)
    (hpix : ∀ x y : Nat, (x : Int) < ji.width → (y : Int) < ji.height → t.InRange (f x y) ∧ |f x y| ≤ P)
    (hov : (n + 1 : Nat) * (P + 1) ≤ t.signedType.hi) (c1 c2 : Bool) (pins : List Pin) :
    ∃ st1 st2 s', nativeThreshold 0 (fun i o => ThresholdOps.localMeanFilter 0
          (fun a b r s => BlurImageOps.meanInt t (intElem t junk) a b r s) (fun v => (v : K)) (fun b => if b then 1 else 0)
          width scale down s1 s2 i o >>= fun r => pure ((r.2.1, r.2.2), r.1)) ji jo c1 c2 ⟨h, pins⟩ = .ok (some (st1, st2)) s' ∧
      JavaEffect ⟨h, pins⟩ s' (fun b => b = s1.buf ∨ b = s2.buf) jo
        (fun x y => if (if down then (f x y : K) ≤ (meanImage t (n / 2) ji.width.toNat ji.height.toNat f x y : K) * scale
          else (f x y : K) * scale > (meanImage t (n / 2) ji.width.toNat ji.height.toNat f x y : K)) then 1 else 0) ∧
      Kept s'.heap st1 st2 ji jo ∧ (st1.buf = s1.buf ∨ h.next ≤ st1.buf) ∧ (st2.buf = s2.buf ∨ h.next ≤ st2.buf) ∧
      (st2.dataLength = s2.dataLength ∨ st2.dataLength = ji.width.toNat * ji.height.toNat) := by
  have hop := op2_local (w := ji.width.toNat) (ht := ji.height.toNat) (f := f) hk
    (process := ThresholdOps.localMeanFilter 0
          (fun a b r s => BlurImageOps.meanInt t (intElem t junk) a b r s) (fun v => (v : K)) (fun b => if b then 1 else 0)
          width scale down s1 s2)
    (F := fun x y => if (if down then (f x y : K) ≤ (meanImage t (n / 2) ji.width.toNat ji.height.toNat f x y : K) * scale
          else (f x y : K) * scale > (meanImage t (n / 2) ji.width.toNat ji.height.toNat f x y : K)) then 1 else 0)
    (fun h1 i o vi vo w1 w2 ew eh ew' eh' hl hne i1 i2 p1 p2 hf => by
      obtain ⟨out, st1, st2, h', e, T, -⟩ := C36_localMean_partial (K := K) ht junk (input := i) (output := o) (storage1 := s1)
        (storage2 := s2) (width := width) (scale := scale) (down := down) (n := n) (P := P) (by rw [ew, eh]; exact hn) hn2 vi vo w1 w2 hf
        (Or.inr ⟨by omega, by omega⟩) (Or.inl hk.2.2.1) (Or.inl hk.2.2.2.1) (Or.inl hne) (Or.inl i1) (Or.inl i2) p1 p2 hk.2.2.2.2.1
        (by omega) (by omega) hl hls (by rw [ew, eh]; exact hshape) hP hPh (fun x y hx hy => hpix x y (by omega) (by omega)) hov
      rw [ew, eh] at T
      refine ⟨out, st1, st2, h', e, T, ?_⟩
      rw [← ew, ← eh]
      exact localMean_len vi.area_lt e) ha.lt
  obtain ⟨⟨st1, st2⟩, s', F, rfl, e, hJ, hQ, -, hB⟩ := nativeThreshold_run 0 ha.input ha.output ha.apart ha.width ha.height
    (fun b c => by rcases c with rfl | rfl; exacts [hk.1.lt_next, hk.2.1.lt_next])
    (fun b c => by rcases c with rfl | rfl; exacts [hk.2.2.2.2.2 _ (Or.inl rfl), hk.2.2.2.2.2 _ (Or.inr rfl)]) ha.shows hop c1 c2 pins
  exact ⟨st1, st2, s', e, hJ, hQ, hB⟩

/-- The same for floating point pixels, exact arithmetic. -/
theorem C74_localMean_float_partial (E : GrowArray.Elem K) (hz : E.ms E.zero = E.zero) {h : Heap K}
    {ji jo : JImage} {s1 s2 : Gray} {f : Nat → Nat → K} (ha : JArgs h ji jo f) (hk : Kept h s1 s2 ji jo)
    {width : ConfigLength K} {scale : K} {down : Bool} {n : Nat}
    (hn : ∀ h : Heap K, width.computeI ((min ji.width.toNat ji.height.toNat : Nat) : K) h = .ok n h) (hn2 : 2 ≤ n)
    (hb : ji.width.toNat + (n + 1) ≤ 2147483648) (hb2 : ji.height.toNat + (n + 1) ≤ 2147483648)
    (hls : s2.dataLength < 2147483648)
    (hshape : 2 * (n / 2) + 1 ≤ ji.height.toNat ∨ ji.width.toNat < 2 * (n / 2) + 1) (c1 c2 : Bool) (pins : List Pin) :
    ∃ st1 st2 s', nativeThreshold 0 (fun i o => ThresholdOps.localMeanFilter 0
          (fun a b r s => BlurImageOps.meanFloat E a b r s) id (fun b => if b then 1 else 0)
          width scale down s1 s2 i o >>= fun r => pure ((r.2.1, r.2.2), r.1)) ji jo c1 c2 ⟨h, pins⟩ = .ok (some (st1, st2)) s' ∧
      JavaEffect ⟨h, pins⟩ s' (fun b => b = s1.buf ∨ b = s2.buf) jo
        (fun x y => if (if down then f x y ≤ meanImageK (n / 2) ji.width.toNat ji.height.toNat f x y * scale
          else f x y * scale > meanImageK (n / 2) ji.width.toNat ji.height.toNat f x y) then 1 else 0) ∧
      Kept s'.heap st1 st2 ji jo ∧ (st1.buf = s1.buf ∨ h.next ≤ st1.buf) ∧ (st2.buf = s2.buf ∨ h.next ≤ st2.buf) ∧
      (st2.dataLength = s2.dataLength ∨ st2.dataLength = ji.width.toNat * ji.height.toNat) := by
  have hop := op2_local (w := ji.width.toNat) (ht := ji.height.toNat) (f := f) hk
    (process := ThresholdOps.localMeanFilter 0
          (fun a b r s => BlurImageOps.meanFloat E a b r s) id (fun b => if b then 1 else 0)
          width scale down s1 s2)
    (F := fun x y => if (if down then f x y ≤ meanImageK (n / 2) ji.width.toNat ji.height.toNat f x y * scale
          else f x y * scale > meanImageK (n / 2) ji.width.toNat ji.height.toNat f x y) then 1 else 0)
    (fun h1 i o vi vo w1 w2 ew eh ew' eh' hl hne i1 i2 p1 p2 hf => by
      obtain ⟨out, st1, st2, h', e, T, -⟩ := C36_localMean_float_partial E hz (input := i) (output := o) (storage1 := s1)
        (storage2 := s2) (width := width) (scale := scale) (down := down) (n := n) (by rw [ew, eh]; exact hn) hn2 vi vo w1 w2 hf
        (Or.inr ⟨by omega, by omega⟩) (Or.inl hk.2.2.1) (Or.inl hk.2.2.2.1) (Or.inl hne) (Or.inl i1) (Or.inl i2) p1 p2 hk.2.2.2.2.1
        (by omega) (by omega) hl hls (by rw [ew, eh]; exact hshape)
      rw [ew, eh] at T
      refine ⟨out, st1, st2, h', e, T, ?_⟩
      rw [← ew, ← eh]
      exact localMean_len vi.area_lt e) ha.lt
  obtain ⟨⟨st1, st2⟩, s', F, rfl, e, hJ, hQ, -, hB⟩ := nativeThreshold_run 0 ha.input ha.output ha.apart ha.width ha.height
    (fun b c => by rcases c with rfl | rfl; exacts [hk.1.lt_next, hk.2.1.lt_next])
    (fun b c => by rcases c with rfl | rfl; exacts [hk.2.2.2.2.2 _ (Or.inl rfl), hk.2.2.2.2.2 _ (Or.inr rfl)]) ha.shows hop c1 c2 pins
  exact ⟨st1, st2, s', e, hJ, hQ, hB⟩

/-- From the effect of a block filter to the contract of a native call. -/
theorem op2_blocks {h : Heap V} {st : Interleaved} {ji jo : JImage} (hk : KeptStats h st ji jo) {w ht cw ch : Nat}
    {f : Nat → Nat → V} {P : (Nat → Nat → V) → Prop} {process : Gray → Gray → M V Blocks}
    (hop : ∀ (h1 : Heap V) (i o : Gray), BlockArgs h1 st i o f → i.width = w → i.height = ht →
      ∃ b h' S F, process i o h1 = .ok b h' ∧ P F ∧ Filtered h1 h' st b.stats o cw ch S F)
    (hja : ∀ a, ji.data = some a ∨ jo.data = some a → a < h.next) :
    Op2 h (fun b => b = st.buf) w ht f P (fun i o => process i o >>= fun b => pure (b, o))
      (fun b h' => KeptStats h' b.stats ji jo ∧ b.stats.width = cw ∧ b.stats.height = ch ∧ b.stats.numBands = st.numBands ∧
        (b.stats.buf = st.buf ∨ h.next ≤ b.stats.buf)) := by
  obtain ⟨v1, o1, j1, j2⟩ := hk
  intro h1 i o hn hfr vi vo ew eh ew' eh' _ _ _ _ hne hi ho hf
  have hlt := v1.lt_next
  have v1' : st.Valid h1 := v1.transfer (by rw [hfr _ hlt]; exact v1.live) (fun k hk => by
    rw [cell_congr (hfr _ hlt)]; exact v1.cells k hk)
  have hdis : i.Disjoint o := fun _ _ _ _ _ _ _ _ e => absurd e hne
  obtain ⟨b, h2, S, F, e, hP, hF⟩ := hop h1 i o ⟨vi, hf, vo, by omega, by omega, Or.inr hdis, v1', o1, hi, ho⟩ ew eh
  obtain ⟨q1, q2, q3, q4, q5, q6, q7⟩ := hF.stats
  refine ⟨b, h2, F, hP, (M.bind_ok e).trans rfl, hF.pix, hF.nextLe, ?_, ?_, ?_⟩
  · intro b' k hb hnb hpx
    exact hF.frame b' k hnb hb (fun x y hx hy => hpx x y (by omega) (by omega))
  · intro b' hb hnb
    exact hF.alive b' hnb hb
  · intro h3 h3g
    have hg : h3.get b.stats.buf = h2.get b.stats.buf := h3g _ q7
    refine ⟨⟨q1.transfer (by rw [hg]; exact q1.live) (fun k hk => by rw [cell_congr hg]; exact q1.cells k hk), q2, ?_, ?_⟩,
      q3, q4, q5, q7.imp_right (fun c => Nat.le_trans hn c)⟩
    · rcases q7 with c | c
      · rw [c]; exact j1
      · intro e; have := hja _ (Or.inl e); omega
    · rcases q7 with c | c
      · rw [c]; exact j2
      · intro e; have := hja _ (Or.inr e); omega

/-- `NativeBlockMean.process`; `st` are the statistics inside the filter, which can be used again afterwards.  MISSING for the
full property: pictures with negative values, as in C39. -/
theorem C74_blockMean_partial {t : IntTy} (ht : t = U8 ∨ t = U16 ∨ t = S16) {scaled : Int → Nat → K} {useLocal down : Bool}
    {z : Int} {config : ConfigLength K} {h : Heap Int} {st : Interleaved} {ji jo : JImage} {f : Nat → Nat → Int}
    (ha : JArgs h ji jo f) (hk : KeptStats h st ji jo) (hnb : st.numBands = 1)
    {req w ht' : Nat} (ew : ji.width = w) (eh : ji.height = ht') (h1 : 1 ≤ req) (hw : req ≤ w) (hh : req ≤ ht')
    (hreq : ∀ h : Heap Int, config.computeI ((min w ht' : Nat) : K) h = .ok (req : Int) h)
    (hf0 : ∀ x y, x < w → y < ht' → 0 ≤ f x y)
    (hsum : ∀ i j, i < Grid.count w req → j < Grid.count ht' req →
      rectSum f (Grid.lo w req i) (Grid.hi w req i) (Grid.lo ht' req j) (Grid.hi ht' req j) ≤ t.sumType.hi)
    (hstat : ∀ i j, i < Grid.count w req → j < Grid.count ht' req →
      0 ≤ meanStat scaled w ht' req f i j ∧ meanStat scaled w ht' req f i j ≤ t.hi) (c1 c2 : Bool) (pins : List Pin) :
    ∃ b s', nativeThreshold z (fun i o => Blocks.process (BlockMean.ops t scaled useLocal down) z config st i o >>= fun b => pure (b, o))
        ji jo c1 c2 ⟨h, pins⟩ = .ok (some b) s' ∧
      JavaEffect ⟨h, pins⟩ s' (fun b => b = st.buf) jo
        (fun x y => if down = decide (f x y ≤ localMean useLocal w ht' req
            (meanStat scaled w ht' req f) (Grid.blockOf w req x) (Grid.blockOf ht' req y)) then 1 else 0) ∧
      KeptStats s'.heap b.stats ji jo ∧ b.stats.numBands = 1 ∧ (b.stats.buf = st.buf ∨ h.next ≤ b.stats.buf) := by
  have e1 : ji.width.toNat = w := by omega
  have e2 : ji.height.toNat = ht' := by omega
  have hop := op2_blocks (w := ji.width.toNat) (ht := ji.height.toNat) (cw := Grid.count w req) (ch := Grid.count ht' req) (f := f) hk
    (P := fun F => F = fun x y => if down = decide (f x y ≤ localMean useLocal w ht' req
            (meanStat scaled w ht' req f) (Grid.blockOf w req x) (Grid.blockOf ht' req y)) then 1 else 0)
    (process := Blocks.process (BlockMean.ops t scaled useLocal down) z config st)
    (fun h1' i o hb ew eh => by
      rw [e1] at ew; rw [e2] at eh
      obtain ⟨b, h', e, hF⟩ := C39_mean_partial (scaled := scaled) (useLocal := useLocal) (down := down) (z := z) ht hb hnb h1 (by omega)
        (by omega) (by rw [ew, eh]; exact hreq h1') (by rw [ew, eh]; exact hf0) (by rw [ew, eh]; exact hsum)
        (by rw [ew, eh]; exact hstat)
      rw [ew, eh] at hF
      exact ⟨b, h', _, _, e, rfl, hF⟩) ha.lt
  obtain ⟨b, s', F, rfl, e, hJ, hQ, -, -, hb, hd⟩ := nativeThreshold_run z ha.input ha.output ha.apart ha.width ha.height
    (fun b c => by rw [c]; exact hk.1.lt_next) (fun b c => by rw [c]; exact hk.2.2) ha.shows hop c1 c2 pins
  exact ⟨b, s', e, hJ, hQ, hb.trans hnb, hd⟩

/-- `NativeBlockMinMax.process`.  MISSING for the full property: a negative minimum spread, as in C40. -/
theorem C74_blockMinMax_partial {t : IntTy} (ht : t = U8 ∨ t = U16 ∨ t = S16) {minimumSpread : K} {scaleMul : Int → K}
    {useLocal down : Bool} {z : Int} {config : ConfigLength K} {h : Heap Int} {st : Interleaved} {ji jo : JImage}
    {f : Nat → Nat → Int} (ha : JArgs h ji jo f) (hk : KeptStats h st ji jo) (hnb : st.numBands = 2)
    {req w ht' : Nat} (ew : ji.width = w) (eh : ji.height = ht') (h1 : 1 ≤ req) (hw : req ≤ w) (hh : req ≤ ht')
    (hreq : ∀ h : Heap Int, config.computeI ((min w ht' : Nat) : K) h = .ok (req : Int) h)
    (hfr : ∀ x y, x < w → y < ht' → t.InRange (f x y))
    (hsize : Grid.count w req * Grid.count ht' req * 2 < 4294967296)
    (hspread : t.sumType.InRange (truncK minimumSpread))
    (hscale : ∀ m, t.InRange m → t.sumType.InRange (truncK (scaleMul m))) (c1 c2 : Bool) (pins : List Pin) :
    ∃ b s', ∃ mn mx : Nat → Nat → Int,
      nativeThreshold z (fun i o => Blocks.process (BlockMinMax.ops t minimumSpread scaleMul useLocal down) z config st i o >>=
        fun b => pure (b, o)) ji jo c1 c2 ⟨h, pins⟩ = .ok (some b) s' ∧
      (∀ i j, i < Grid.count w req → j < Grid.count ht' req →
        IsRectMin f (localLo useLocal w req i) (localHi useLocal w req i)
          (localLo useLocal ht' req j) (localHi useLocal ht' req j) (mn i j) ∧
        IsRectMax f (localLo useLocal w req i) (localHi useLocal w req i)
          (localLo useLocal ht' req j) (localHi useLocal ht' req j) (mx i j)) ∧
      JavaEffect ⟨h, pins⟩ s' (fun b => b = st.buf) jo
        (fun x y =>
          let i := Grid.blockOf w req x
          let j := Grid.blockOf ht' req y
          if mx i j - mn i j ≤ truncK minimumSpread then 1
          else if down = decide (f x y ≤ truncK (scaleMul ((mx i j + mn i j).tdiv 2))) then 1 else 0) ∧
      KeptStats s'.heap b.stats ji jo ∧ b.stats.numBands = 2 ∧ (b.stats.buf = st.buf ∨ h.next ≤ b.stats.buf) := by
  have e1 : ji.width.toNat = w := by omega
  have e2 : ji.height.toNat = ht' := by omega
  have hop := op2_blocks (w := ji.width.toNat) (ht := ji.height.toNat) (cw := Grid.count w req) (ch := Grid.count ht' req) (f := f) hk
    (P := fun F => ∃ mn mx : Nat → Nat → Int,
      (∀ i j, i < Grid.count w req → j < Grid.count ht' req →
        IsRectMin f (localLo useLocal w req i) (localHi useLocal w req i)
          (localLo useLocal ht' req j) (localHi useLocal ht' req j) (mn i j) ∧
        IsRectMax f (localLo useLocal w req i) (localHi useLocal w req i)
          (localLo useLocal ht' req j) (localHi useLocal ht' req j) (mx i j)) ∧
      F = (fun x y =>
          let i := Grid.blockOf w req x
          let j := Grid.blockOf ht' req y
          if mx i j - mn i j ≤ truncK minimumSpread then 1
          else if down = decide (f x y ≤ truncK (scaleMul ((mx i j + mn i j).tdiv 2))) then 1 else 0))
    (process := Blocks.process (BlockMinMax.ops t minimumSpread scaleMul useLocal down) z config st)
    (fun h1' i o hb ew eh => by
      rw [e1] at ew; rw [e2] at eh
      obtain ⟨b, h', S, mn, mx, e, hm, hF⟩ := C40_minmax_partial (minimumSpread := minimumSpread) (scaleMul := scaleMul)
        (useLocal := useLocal) (down := down) (z := z) ht hb hnb h1 (by omega)
        (by omega) (by rw [ew, eh]; exact hreq h1') (by rw [ew, eh]; exact hfr) (by rw [ew, eh]; exact hsize) hspread hscale
      rw [ew, eh] at hF hm
      exact ⟨b, h', S, _, e, ⟨mn, mx, hm, rfl⟩, hF⟩) ha.lt
  obtain ⟨b, s', F, ⟨mn, mx, hm, rfl⟩, e, hJ, hQ, -, -, hb, hd⟩ := nativeThreshold_run z ha.input ha.output ha.apart ha.width ha.height
    (fun b c => by rw [c]; exact hk.1.lt_next) (fun b c => by rw [c]; exact hk.2.2) ha.shows hop c1 c2 pins
  exact ⟨b, s', mn, mx, e, hm, hJ, hQ, hb.trans hnb, hd⟩

/-- `NativeBlockOtsu.process` for 8 bit pictures, any variant: `th i j` is the threshold the variant gives for the histogram of
the blocks around block `(i,j)`. -/
theorem C74_blockOtsu {otsu : ComputeOtsu K} {useLocal : Bool} {z : Int} {config : ConfigLength K} {h : Heap Int}
    {st : Interleaved} {ji jo : JImage} {f : Nat → Nat → Int} (ha : JArgs h ji jo f) (hk : KeptStats h st ji jo)
    (hnb : st.numBands = 256) {req w ht' : Nat} (ew : ji.width = w) (eh : ji.height = ht') (h1 : 1 ≤ req) (hw : req ≤ w)
    (hh : req ≤ ht') (hreq : ∀ h : Heap Int, config.computeI ((min w ht' : Nat) : K) h = .ok (req : Int) h)
    (hf : ∀ x y, x < w → y < ht' → 0 ≤ f x y ∧ f x y ≤ 255) (harea : w * ht' < 2147483648)
    (hsize : Grid.count w req * Grid.count ht' req * 256 < 4294967296) {th : Nat → Nat → Int}
    (hth : ∀ i j (h : Heap Int), i < Grid.count w req → j < Grid.count ht' req →
      otsu.compute ⟨(List.range 256).map (fun k : Nat => rectCount f k (localLo useLocal w req i) (localHi useLocal w req i)
          (localLo useLocal ht' req j) (localHi useLocal ht' req j)), 256, 0, true⟩
        ((localHi useLocal w req i - localLo useLocal w req i) * (localHi useLocal ht' req j - localLo useLocal ht' req j)) h =
        .ok (th i j) h) (c1 c2 : Bool) (pins : List Pin) :
    ∃ b s', nativeThreshold z (fun i o => Blocks.process (BlockOtsu.ops otsu useLocal) z config st i o >>= fun b => pure (b, o))
        ji jo c1 c2 ⟨h, pins⟩ = .ok (some b) s' ∧
      JavaEffect ⟨h, pins⟩ s' (fun b => b = st.buf) jo
        (fun x y => if otsu.down = decide (f x y ≤ th (Grid.blockOf w req x) (Grid.blockOf ht' req y)) then 1 else 0) ∧
      KeptStats s'.heap b.stats ji jo ∧ b.stats.numBands = 256 ∧ (b.stats.buf = st.buf ∨ h.next ≤ b.stats.buf) := by
  have e1 : ji.width.toNat = w := by omega
  have e2 : ji.height.toNat = ht' := by omega
  have hop := op2_blocks (w := ji.width.toNat) (ht := ji.height.toNat) (cw := Grid.count w req) (ch := Grid.count ht' req) (f := f) hk
    (P := fun F => F = (fun x y => if otsu.down = decide (f x y ≤ th (Grid.blockOf w req x) (Grid.blockOf ht' req y)) then 1 else 0))
    (process := Blocks.process (BlockOtsu.ops otsu useLocal) z config st)
    (fun h1' i o hb ew eh => by
      rw [e1] at ew; rw [e2] at eh
      obtain ⟨b, h', S, e, hF⟩ := C41_otsu (otsu := otsu) (useLocal := useLocal) (z := z) (th := th) hb hnb h1 (by omega)
        (by omega) (by rw [ew, eh]; exact hreq h1') (by rw [ew, eh]; exact hf) (by rw [ew, eh]; exact harea)
        (by rw [ew, eh]; exact hsize) (by rw [ew, eh]; exact hth)
      rw [ew, eh] at hF
      exact ⟨b, h', S, _, e, rfl, hF⟩) ha.lt
  obtain ⟨b, s', F, rfl, e, hJ, hQ, -, -, hb, hd⟩ := nativeThreshold_run z ha.input ha.output ha.apart ha.width ha.height
    (fun b c => by rw [c]; exact hk.1.lt_next) (fun b c => by rw [c]; exact hk.2.2) ha.shows hop c1 c2 pins
  exact ⟨b, s', e, hJ, hQ, hb.trans hnb, hd⟩

/-! ## Blurring -/

/-- From the effect of blurring to the contract of a native call. -/
theorem op3_blur {h : Heap V} {w ht : Nat} {f : Nat → Nat → V} {P : (Nat → Nat → V) → Prop}
    {process : Gray → Gray → Gray → M V (Gray × Gray)}
    (hop : ∀ (h1 : Heap V) (i o s : Gray), i.Valid h1 → o.Valid h1 → s.Valid h1 → i.width = w → i.height = ht →
      o.width = w → o.height = ht → s.width = w → s.height = ht →
      i.dataLength < 2147483648 → s.dataLength < 2147483648 → i.buf ≠ o.buf → i.buf ≠ s.buf → s.buf ≠ o.buf → i.Shows h1 f →
      ∃ out st h' F m, P F ∧ process i o s h1 = .ok (out, st) h' ∧ Produced2 h1 h' o out s st w ht F m) :
    Op3 h w ht f P process := by
  intro h1 i o s _ _ vi vo vs a1 a2 a3 a4 a5 a6 _ _ _ b1 _ b3 n1 n2 n3 hf
  obtain ⟨out, st, h2, F, m, hP, e, p⟩ := hop h1 i o s vi vo vs a1 a2 a3 a4 a5 a6 b1 b3 n1 n2 n3 hf
  obtain ⟨rfl, hin⟩ := p.inPlace a3 a4
  obtain ⟨rfl, -⟩ := p.sInPlace a5 a6
  refine ⟨h2, F, hP, e, fun x y hx hy => p.pix x y (by omega) (by omega), p.nextLe, ?_, ?_⟩
  · intro b k hb hbs hpx
    by_cases c : b = out.buf
    · subst c
      exact hin k (fun x y hx hy e => hpx x y hx hy ⟨rfl, e⟩)
    · exact p.frame b k c hbs hb
  · intro b hb
    by_cases c : b = out.buf
    · subst c
      rw [p.valid.live, vo.live]
    · by_cases d : b = st.buf
      · subst d
        rw [p.svalid.live, vs.live]
      · exact p.alive b c d hb

/-- `NativeImageBlurOps.nativeMean` for integral pixels.  `js` is the storage image; what it shows afterwards is not
specified.  MISSING for the full property: `hshape`, as in C54. -/
theorem C74_mean_partial {t : IntTy} (ht : t ∈ [U8, U16, S16, S32, S64]) (junk : Nat → Int) {h : Heap Int} {ji jo js : JImage}
    {f : Nat → Nat → Int} (ha : JArgs h ji jo f) (hjs : js.Ok h) (hns : ji.data ≠ js.data) (hos : jo.data ≠ js.data)
    (hsw : js.width = ji.width) (hsh : js.height = ji.height) {r : Nat} {P : Int} {w ht' : Nat} (ew : ji.width = w)
    (eh : ji.height = ht') (hr : 0 < r) (hb : w + (2 * r + 1) ≤ 2147483648) (hb2 : ht' + (2 * r + 1) ≤ 2147483648)
    (hshape : 2 * r + 1 ≤ ht' ∨ w < 2 * r + 1) (hP : 0 ≤ P) (hPh : P ≤ t.hi)
    (hpix : ∀ x y, x < w → y < ht' → t.InRange (f x y) ∧ |f x y| ≤ P)
    (hov : (2 * r + 1 : Nat) * (P + 1) ≤ t.signedType.hi) (c1 c2 c3 : Bool) (pins : List Pin) :
    ∃ s', nativeBlur 0 (fun i o s => BlurImageOps.meanInt t (intElem t junk) i o r s) ji jo js c1 c2 c3 ⟨h, pins⟩ = .ok () s' ∧
      JavaEffect ⟨h, pins⟩ s' (fun b => js.data = some b) jo (meanImage t r w ht' f) ∧
      ∀ b, b < h.next → (s'.heap.get b).isSome = (h.get b).isSome := by
  have e1 : ji.width.toNat = w := by omega
  have e2 : ji.height.toNat = ht' := by omega
  have hop : Op3 h ji.width.toNat ji.height.toNat f ((· = meanImage t r w ht' f))
      (fun i o s => BlurImageOps.meanInt t (intElem t junk) i o r s) := by
    refine op3_blur ?_
    intro h1 i o s vi vo vs a1 a2 a3 a4 a5 a6 b1 b3 n1 n2 n3 hf
    rw [e1] at a1 a3 a5 ⊢
    rw [e2] at a2 a4 a6 ⊢
    obtain ⟨out, st, h', e, p, -⟩ := C54_mean_partial ht junk (r := r) (P := P) vi vo vs hf (Or.inr ⟨by omega, by omega⟩) (Or.inr ⟨by omega, by omega⟩)
      (Or.inl n1) (Or.inl n2) n3 hr (by omega) (by omega) b1 b3 (by rw [a1, a2]; exact hshape) hP hPh (by rw [a1, a2]; exact hpix) hov
    rw [a1, a2] at p
    exact ⟨out, st, h', _, _, rfl, e, p⟩
  obtain ⟨s', F, rfl, e, hJ, hal⟩ := nativeBlur_run 0 ha.input ha.output hjs ha.apart hns hos ha.width ha.height hsw hsh
    ha.shows hop c1 c2 c3 pins
  exact ⟨s', e, hJ, hal⟩

/-- `NativeImageBlurOps.nativeMean` for floating point pixels, exact arithmetic.  MISSING: `hshape`. -/
theorem C74_mean_float_partial (E : GrowArray.Elem K) (hz : E.ms E.zero = E.zero) {h : Heap K} {ji jo js : JImage}
    {f : Nat → Nat → K} (ha : JArgs h ji jo f) (hjs : js.Ok h) (hns : ji.data ≠ js.data) (hos : jo.data ≠ js.data)
    (hsw : js.width = ji.width) (hsh : js.height = ji.height) {r : Nat} {w ht' : Nat} (ew : ji.width = w)
    (eh : ji.height = ht') (hr : 0 < r) (hb : w + (2 * r + 1) ≤ 2147483648) (hb2 : ht' + (2 * r + 1) ≤ 2147483648)
    (hshape : 2 * r + 1 ≤ ht' ∨ w < 2 * r + 1) (c1 c2 c3 : Bool) (pins : List Pin) :
    ∃ s', nativeBlur 0 (fun i o s => BlurImageOps.meanFloat E i o r s) ji jo js c1 c2 c3 ⟨h, pins⟩ = .ok () s' ∧
      JavaEffect ⟨h, pins⟩ s' (fun b => js.data = some b) jo (meanImageK r w ht' f) ∧
      ∀ b, b < h.next → (s'.heap.get b).isSome = (h.get b).isSome := by
  have e1 : ji.width.toNat = w := by omega
  have e2 : ji.height.toNat = ht' := by omega
  have hop : Op3 h ji.width.toNat ji.height.toNat f ((· = meanImageK r w ht' f))
      (fun i o s => BlurImageOps.meanFloat E i o r s) := by
    refine op3_blur ?_
    intro h1 i o s vi vo vs a1 a2 a3 a4 a5 a6 b1 b3 n1 n2 n3 hf
    rw [e1] at a1 a3 a5 ⊢
    rw [e2] at a2 a4 a6 ⊢
    obtain ⟨out, st, h', e, p, -⟩ := C54_mean_float_partial E hz (r := r) vi vo vs hf (Or.inr ⟨by omega, by omega⟩) (Or.inr ⟨by omega, by omega⟩)
      (Or.inl n1) (Or.inl n2) n3 hr (by omega) (by omega) b1 b3 (by rw [a1, a2]; exact hshape)
    rw [a1, a2] at p
    exact ⟨out, st, h', _, _, rfl, e, p⟩
  obtain ⟨s', F, rfl, e, hJ, hal⟩ := nativeBlur_run 0 ha.input ha.output hjs ha.apart hns hos ha.width ha.height hsw hsh
    ha.shows hop c1 c2 c3 pins
  exact ⟨s', e, hJ, hal⟩

/-- `NativeImageBlurOps.nativeGaussian` for floating point pixels, exact arithmetic. -/
theorem C74_gaussian_float (E : GrowArray.Elem K) (hz : E.ms E.zero = E.zero) {ex : K → K} {c0 : K} (hc0 : 0 < c0)
    (hex : ∀ x, 0 < ex x) (hmono : ∀ x y, x < y → ex x < ex y) {sigma : K} {width : Int} {kw : Nat} {s : K}
    (hsz : GaussianSize sigma width kw s) {h : Heap K} {ji jo js : JImage}
    {f : Nat → Nat → K} (ha : JArgs h ji jo f) (hjs : js.Ok h) (hns : ji.data ≠ js.data) (hos : jo.data ≠ js.data)
    (hsw : js.width = ji.width) (hsh : js.height = ji.height) {w ht' : Nat} (ew : ji.width = w)
    (eh : ji.height = ht') (hb : w + kw ≤ 2147483648) (hb2 : ht' + kw ≤ 2147483648) (hw2 : kw < 2147483648)
    (c1 c2 c3 : Bool) (pins : List Pin) :
    ∃ c s', nativeBlur 0 (fun i o st => BlurImageOps.gaussianFloat E ex c0 i o sigma width st) ji jo js c1 c2 c3 ⟨h, pins⟩ = .ok () s' ∧
      IsGaussian ex s kw c ∧
      JavaEffect ⟨h, pins⟩ s' (fun b => js.data = some b) jo
        (fun x y => exactAvg kw (kw / 2) c ht' (fun j => exactAvg kw (kw / 2) c w (fun i => f i j) x) y) := by
  have e1 : ji.width.toNat = w := by omega
  have e2 : ji.height.toNat = ht' := by omega
  have hop : Op3 h ji.width.toNat ji.height.toNat f (fun F => ∃ c, IsGaussian ex s kw c ∧
      F = fun x y => exactAvg kw (kw / 2) c ht' (fun j => exactAvg kw (kw / 2) c w (fun i => f i j) x) y)
      (fun i o st => BlurImageOps.gaussianFloat E ex c0 i o sigma width st) := by
    refine op3_blur ?_
    intro h1 i o st vi vo vs a1 a2 a3 a4 a5 a6 b1 b3 n1 n2 n3 hf
    rw [e1] at a1 a3 a5 ⊢
    rw [e2] at a2 a4 a6 ⊢
    obtain ⟨c, out, st', h', e, hg, p, -⟩ := C55_gaussian_float E hz hc0 hex hmono hsz vi vo vs hf (Or.inr ⟨by omega, by omega⟩)
      (Or.inr ⟨by omega, by omega⟩) (Or.inl n1) (Or.inl n2) n3 (by omega) (by omega) hw2 b1 b3
    rw [a1, a2] at p
    exact ⟨out, st', h', _, _, ⟨c, hg, rfl⟩, e, p⟩
  obtain ⟨s', F, ⟨c, hg, rfl⟩, e, hJ, -⟩ := nativeBlur_run 0 ha.input ha.output hjs ha.apart hns hos ha.width ha.height hsw hsh
    ha.shows hop c1 c2 c3 pins
  exact ⟨c, s', e, hg, hJ⟩

/-- `NativeImageBlurOps.nativeGaussian` for integral pixels. -/
theorem C74_gaussian (E : GrowArray.Elem K) (hz : E.ms E.zero = E.zero) {ex : K → K} {c0 : K} (hc0 : 0 < c0)
    (hex : ∀ x, 0 < ex x) (hmono : ∀ x y, x < y → ex x < ex y) {sigma : K} {width : Int} {kw : Nat} {s : K}
    (hsz : GaussianSize sigma width kw s) {t : IntTy} (ht : t ∈ [U8, U16, S16, S32, S64]) (junk : Nat → Int)
    {h : Heap Int} {ji jo js : JImage}
    {f : Nat → Nat → Int} (ha : JArgs h ji jo f) (hjs : js.Ok h) (hns : ji.data ≠ js.data) (hos : jo.data ≠ js.data)
    (hsw : js.width = ji.width) (hsh : js.height = ji.height) {w ht' : Nat} {P : Int} (ew : ji.width = w)
    (eh : ji.height = ht') (hb : w + kw ≤ 2147483648) (hb2 : ht' + kw ≤ 2147483648) (hw2 : kw < 2147483648)
    (hP : 0 ≤ P) (hPh : P ≤ t.hi) (hpix : ∀ x y, x < w → y < ht' → t.InRange (f x y) ∧ |f x y| ≤ P)
    (hov : (100 * kw : Nat) * (P + 1) ≤ t.signedType.hi) (c1 c2 c3 : Bool) (pins : List Pin) :
    ∃ c d s', nativeBlur 0 (fun i o st => BlurImageOps.gaussianInt t E (intElem t.signedType junk) ex c0 i o sigma width st)
        ji jo js c1 c2 c3 ⟨h, pins⟩ = .ok () s' ∧
      IsGaussian ex s kw c ∧ IsIntKernel kw c d 100 ∧
      JavaEffect ⟨h, pins⟩ s' (fun b => js.data = some b) jo
        (fun x y => roundedAvg t kw (kw / 2) d ht' (fun j => roundedAvg t kw (kw / 2) d w (fun i => f i j) x) y) := by
  have e1 : ji.width.toNat = w := by omega
  have e2 : ji.height.toNat = ht' := by omega
  have hop : Op3 h ji.width.toNat ji.height.toNat f (fun F => ∃ c d, IsGaussian ex s kw c ∧ IsIntKernel kw c d 100 ∧
      F = fun x y => roundedAvg t kw (kw / 2) d ht' (fun j => roundedAvg t kw (kw / 2) d w (fun i => f i j) x) y)
      (fun i o st => BlurImageOps.gaussianInt t E (intElem t.signedType junk) ex c0 i o sigma width st) := by
    refine op3_blur ?_
    intro h1 i o st vi vo vs a1 a2 a3 a4 a5 a6 b1 b3 n1 n2 n3 hf
    rw [e1] at a1 a3 a5 ⊢
    rw [e2] at a2 a4 a6 ⊢
    obtain ⟨c, d, out, st', h', e, hg, hd, p, -⟩ := C55_gaussian E hz hc0 hex hmono hsz ht junk (P := P) vi vo vs hf
      (Or.inr ⟨by omega, by omega⟩) (Or.inr ⟨by omega, by omega⟩) (Or.inl n1) (Or.inl n2) n3 (by omega) (by omega) hw2
      hP hPh (by rw [a1, a2]; exact hpix) hov
    rw [a1, a2] at p
    exact ⟨out, st', h', _, _, ⟨c, d, hg, hd, rfl⟩, e, p⟩
  obtain ⟨s', F, ⟨c, d, hg, hd, rfl⟩, e, hJ, -⟩ := nativeBlur_run 0 ha.input ha.output hjs ha.apart hns hos ha.width ha.height hsw hsh
    ha.shows hop c1 c2 c3 pins
  exact ⟨c, d, s', e, hg, hd, hJ⟩

end

/-! ## Convolution -/

/-- `NativeImageConvolve.nativeHorizontal`, with the Java kernel `k` and border `b`.  MISSING for the full property: reflected
and wrapped borders further than one image size away, as in C47. -/
theorem C74_horizontal_partial (z : V) (A : Arith V S) {k : Kernel S} {kw o : Nat} {c : Nat → S} (b : Border V)
    {h : Heap V} {ji jo : JImage} {f F : Nat → Nat → V} (ha : JArgs h ji jo f) {w ht : Nat} (ew : ji.width = w)
    (eh : ji.height = ht) (hk : k.Is1D kw o c) (hok : o < kw) (hw : w + kw ≤ 2147483648) (hr : b.Reach w o (kw - 1 - o))
    (hF : ∀ x y, x < w → y < ht → (rowAt A kw o c (b.ext w ht f) x y).bind A.out = some (F x y))
    (outputFirst c1 c2 : Bool) (pins : List Pin) :
    ∃ s', nativeConvolve z (fun i o => ConvolveImage.horizontal z A k b i o) outputFirst ji jo c1 c2 ⟨h, pins⟩ = .ok () s' ∧
      JavaEffect ⟨h, pins⟩ s' (fun _ => False) jo F := by
  have e1 : ji.width.toNat = w := by omega
  have e2 : ji.height.toNat = ht := by omega
  have hhb := ha.input.height
  refine nativeConvolve_run z ha.input ha.output ha.apart ha.width ha.height ha.shows (Op2.plain ?_) outputFirst c1 c2 pins
  intro h1 i o' _ _ vi vo a1 a2 a3 a4 _ _ _ _ hne _ _ hf
  rw [e1] at a1 a3
  rw [e2] at a2 a4
  obtain ⟨out, h', e, p, -⟩ := C47_horizontal_partial z A b (F := F) vi vo hf (Or.inr ⟨by omega, by omega⟩) (Or.inl hne) hk hok (by omega)
    (by omega) (by rw [a1]; exact hr) (by rw [a1, a2]; exact hF)
  exact ⟨out, h', e, p.inPlace (by omega) (by omega)⟩

/-- `NativeImageConvolve.nativeVertical`.  MISSING: as above. -/
theorem C74_vertical_partial (z : V) (A : Arith V S) {k : Kernel S} {kw o : Nat} {c : Nat → S} (b : Border V)
    {h : Heap V} {ji jo : JImage} {f F : Nat → Nat → V} (ha : JArgs h ji jo f) {w ht : Nat} (ew : ji.width = w)
    (eh : ji.height = ht) (hk : k.Is1D kw o c) (hok : o < kw) (hh : ht + kw ≤ 2147483648) (hr : b.Reach ht o (kw - 1 - o))
    (hF : ∀ x y, x < w → y < ht → (colAt A kw o c (b.ext w ht f) x y).bind A.out = some (F x y))
    (outputFirst c1 c2 : Bool) (pins : List Pin) :
    ∃ s', nativeConvolve z (fun i o => ConvolveImage.vertical z A k b i o) outputFirst ji jo c1 c2 ⟨h, pins⟩ = .ok () s' ∧
      JavaEffect ⟨h, pins⟩ s' (fun _ => False) jo F := by
  have e1 : ji.width.toNat = w := by omega
  have e2 : ji.height.toNat = ht := by omega
  have hhb := ha.input.width
  refine nativeConvolve_run z ha.input ha.output ha.apart ha.width ha.height ha.shows (Op2.plain ?_) outputFirst c1 c2 pins
  intro h1 i o' _ _ vi vo a1 a2 a3 a4 _ _ _ _ hne _ _ hf
  rw [e1] at a1 a3
  rw [e2] at a2 a4
  obtain ⟨out, h', e, p, -⟩ := C48_vertical_partial z A b (F := F) vi vo hf (Or.inr ⟨by omega, by omega⟩) (Or.inl hne) hk hok (by omega)
    (by omega) (by rw [a2]; exact hr) (by rw [a1, a2]; exact hF)
  exact ⟨out, h', e, p.inPlace (by omega) (by omega)⟩

/-- `NativeImageConvolve.nativeConvolve`.  MISSING: as above. -/
theorem C74_convolve_partial (z : V) (A : Arith V S) {k : Kernel S} {kw o : Nat} {c : Nat → Nat → S} (b : Border V)
    {h : Heap V} {ji jo : JImage} {f F : Nat → Nat → V} (ha : JArgs h ji jo f) {w ht : Nat} (ew : ji.width = w)
    (eh : ji.height = ht) (hk : k.Is2D kw o c) (hok : o < kw) (hkw : kw < 65536) (hw : w + kw ≤ 2147483648)
    (hh : ht + kw ≤ 2147483648) (hrx : b.Reach w o (kw - 1 - o)) (hry : b.Reach ht o (kw - 1 - o))
    (hF : ∀ x y, x < w → y < ht → (boxAt A kw o c (b.ext w ht f) x y).bind A.out = some (F x y))
    (outputFirst c1 c2 : Bool) (pins : List Pin) :
    ∃ s', nativeConvolve z (fun i o => ConvolveImage.convolve z A k b i o) outputFirst ji jo c1 c2 ⟨h, pins⟩ = .ok () s' ∧
      JavaEffect ⟨h, pins⟩ s' (fun _ => False) jo F := by
  have e1 : ji.width.toNat = w := by omega
  have e2 : ji.height.toNat = ht := by omega
  refine nativeConvolve_run z ha.input ha.output ha.apart ha.width ha.height ha.shows (Op2.plain ?_) outputFirst c1 c2 pins
  intro h1 i o' _ _ vi vo a1 a2 a3 a4 _ _ _ _ hne _ _ hf
  rw [e1] at a1 a3
  rw [e2] at a2 a4
  obtain ⟨out, h', e, p, -⟩ := C49_convolve_partial z A b (F := F) vi vo hf (Or.inr ⟨by omega, by omega⟩) (Or.inl hne) hk hok hkw (by omega)
    (by omega) (by rw [a1]; exact hrx) (by rw [a2]; exact hry) (by rw [a1, a2]; exact hF)
  exact ⟨out, h', e, p.inPlace (by omega) (by omega)⟩

/-- `NativeImageConvolveNormalized.nativeHorizontal`. -/
theorem C74_normalizedHorizontal (z : V) (A : Arith V S) {k : Kernel S} {kw o : Nat} {c : Nat → S}
    {h : Heap V} {ji jo : JImage} {f F : Nat → Nat → V} (ha : JArgs h ji jo f) {w ht : Nat} (ew : ji.width = w)
    (eh : ji.height = ht) (hk : k.Is1D kw o c) (hok : o < kw) (hw : w + kw ≤ 2147483648)
    (hd : ∀ x, x < w → weightAt A kw o c w x ≠ none)
    (hF : ∀ x y, x < w → y < ht → avgAt A kw o c w (fun i => f i y) x = some (F x y))
    (outputFirst c1 c2 : Bool) (pins : List Pin) :
    ∃ s', nativeConvolve z (fun i o => ConvolveNormalized.horizontal A k i o >>= fun _ => pure o) outputFirst ji jo c1 c2 ⟨h, pins⟩ =
        .ok () s' ∧ JavaEffect ⟨h, pins⟩ s' (fun _ => False) jo F := by
  have e1 : ji.width.toNat = w := by omega
  have e2 : ji.height.toNat = ht := by omega
  refine nativeConvolve_run z ha.input ha.output ha.apart ha.width ha.height ha.shows (Op2.plain ?_) outputFirst c1 c2 pins
  intro h1 i o' _ _ vi vo a1 a2 a3 a4 _ _ _ _ hne _ _ hf
  rw [e1] at a1 a3
  rw [e2] at a2 a4
  obtain ⟨h', e, p, -⟩ := C51_horizontal A (F := F) vi vo hf (fun _ _ _ _ _ _ _ _ e => absurd e hne) (by omega) (by omega) hk hok
    (by omega) (by rw [a1]; exact hd) (by rw [a1, a2]; exact hF)
  exact ⟨o', h', (M.bind_ok e).trans rfl, rfl, p⟩

/-- `NativeImageConvolveNormalized.nativeVertical`.  MISSING for the full property: kernels whose coefficients do not fit the
pixel type with images which are not taller than the kernel, as in C51. -/
theorem C74_normalizedVertical_partial (z : V) (A : Arith V S) {k : Kernel S} {kw o : Nat} {c : Nat → S}
    {h : Heap V} {ji jo : JImage} {f F : Nat → Nat → V} (ha : JArgs h ji jo f) {w ht : Nat} (ew : ji.width = w)
    (eh : ji.height = ht) (hk : k.Is1D kw o c) (hok : o < kw) (hh : ht + kw ≤ 2147483648)
    (hnar : ht ≤ kw → ∀ i, i < kw → A.narrow (c i) = c i) (hd : ∀ y, y < ht → weightAt A kw o c ht y ≠ none)
    (hF : ∀ x y, x < w → y < ht → avgAt A kw o c ht (fun i => f x i) y = some (F x y))
    (outputFirst c1 c2 : Bool) (pins : List Pin) :
    ∃ s', nativeConvolve z (fun i o => ConvolveNormalized.vertical A k i o >>= fun _ => pure o) outputFirst ji jo c1 c2 ⟨h, pins⟩ =
        .ok () s' ∧ JavaEffect ⟨h, pins⟩ s' (fun _ => False) jo F := by
  have e1 : ji.width.toNat = w := by omega
  have e2 : ji.height.toNat = ht := by omega
  refine nativeConvolve_run z ha.input ha.output ha.apart ha.width ha.height ha.shows (Op2.plain ?_) outputFirst c1 c2 pins
  intro h1 i o' _ _ vi vo a1 a2 a3 a4 _ _ _ _ hne _ _ hf
  rw [e1] at a1 a3
  rw [e2] at a2 a4
  obtain ⟨h', e, p, -⟩ := C51_vertical_partial A (F := F) vi vo hf (fun _ _ _ _ _ _ _ _ e => absurd e hne) (by omega) (by omega) hk hok
    (by omega) (by rw [a2]; exact hnar) (by rw [a2]; exact hd) (by rw [a1, a2]; exact hF)
  exact ⟨o', h', (M.bind_ok e).trans rfl, rfl, p⟩

/-! ## When the call fails -/

/-- A picture of another shape than its output: the exception is swallowed, and Java's input array stays pinned. -/
theorem C74_swallow_refuted :
    nativeThreshold (0 : Int) (fun i o => ThresholdOps.globalFixed (fun a b => decide (a ≤ b)) (fun a b => decide (b < a))
        (fun b => if b then 1 else 0) 0 3 true i o >>= fun o => pure ((), o))
      ⟨some 0, 2, 1, 2, 0⟩ ⟨some 1, 1, 2, 1, 0⟩ true true ⟨⟨[some [1, 5], some [0, 0]]⟩, []⟩ =
    .ok none ⟨⟨[some [1, 5], some [0, 0], some [], some [], some [1, 5], none]⟩, [⟨0, 4⟩]⟩ := by decide +kernel

/-- An input image without array: the output array is given back although it has not been pinned. -/
theorem C74_null_refuted :
    nativeThreshold (0 : Int) (fun i o => ThresholdOps.globalFixed (fun a b => decide (a ≤ b)) (fun a b => decide (b < a))
        (fun b => if b then 1 else 0) 0 3 true i o >>= fun o => pure ((), o))
      ⟨none, 2, 1, 2, 0⟩ ⟨some 1, 2, 1, 2, 0⟩ true true ⟨⟨[some [1, 5], some [0, 0]]⟩, []⟩ = .ub := by decide +kernel

/-- An image without array is refused before anything is pinned, and the image which had been made for it is gone: every array
is as it was, and there is no new one. -/
theorem C74_null_throws (z : V) {ji jo js : JImage} (s : Jvm V) (c1 c2 c3 first : Bool)
    (process : Gray → Gray → M V (α × Gray)) (conv : Gray → Gray → M V Gray) (blur : Gray → Gray → Gray → M V (Gray × Gray)) :
    (jo.data = none → ∃ s', nativeThreshold z process ji jo c1 c2 s = .throw s' ∧ s'.pins = s.pins ∧
      ∀ b, s'.heap.get b = s.heap.get b) ∧
    (ji.data = none → ∃ s', nativeConvolve z conv first ji jo c1 c2 s = .throw s' ∧ s'.pins = s.pins ∧
      ∀ b, s'.heap.get b = s.heap.get b) ∧
    (ji.data = none → ∃ s', nativeBlur z blur ji jo js c1 c2 c3 s = .throw s' ∧ s'.pins = s.pins ∧
      ∀ b, s'.heap.get b = s.heap.get b) := by
  have key : ∀ j : JImage, j.data = none → ∃ s', wrapCritical z j s = .throw s' ∧ s'.pins = s.pins ∧
      ∀ b, s'.heap.get b = s.heap.get b := by
    intro j hj
    refine ⟨⟨(s.heap.alloc []).free s.heap.next, s.pins⟩, ?_, rfl, fun b => ?_⟩
    · have hn : (Gray.new z 0 0 : M V Gray) s.heap = .ok ⟨s.heap.next, 0, 0, 0, 0, 0, false⟩ (s.heap.alloc []) := rfl
      unfold wrapCritical
      refine (J.bind_ok (J.lift_ok hn)).trans ?_
      rw [hj]
      have hd : (Gray.destroy ⟨s.heap.next, 0, 0, 0, 0, 0, false⟩ : M V Unit) (s.heap.alloc []) =
          .ok () ((s.heap.alloc []).free s.heap.next) := by
        have : (s.heap.alloc []).get s.heap.next = some [] := by rw [Heap.get_alloc, if_pos rfl]
        unfold Gray.destroy
        simp [M.delArr, this]
      exact (J.bind_ok (s := ⟨s.heap.alloc [], s.pins⟩) (J.lift_ok hd)).trans rfl
    · show ((s.heap.alloc []).free s.heap.next).get b = _
      rw [Heap.get_free, Heap.get_alloc]
      by_cases hb : b = s.heap.next
      · subst hb; simp [Heap.get, Heap.next]
      · simp [hb]
  refine ⟨fun h => ?_, fun h => ?_, fun h => ?_⟩
  · obtain ⟨s', e, q⟩ := key jo h
    exact ⟨s', J.bind_throw e, q⟩
  · obtain ⟨s', e, q⟩ := key ji h
    exact ⟨s', J.bind_throw e, q⟩
  · obtain ⟨s', e, q⟩ := key ji h
    exact ⟨s', J.bind_throw e, q⟩

example : nativeConvolve (0 : Int) (fun _ o => pure o) true ⟨none, 2, 1, 2, 0⟩ ⟨some 0, 2, 1, 2, 0⟩ true true
    ⟨⟨[some [1, 5]]⟩, [⟨0, 0⟩]⟩ = .throw ⟨⟨[some [1, 5], none]⟩, [⟨0, 0⟩]⟩ := by decide +kernel

/-- An exception in a convolution or while blurring reaches the virtual machine, with both arrays pinned. -/
theorem C74_escape_refuted :
    nativeConvolve (0 : Int) (fun i o => ConvolveNormalized.horizontal (intArith U8 U8) ⟨1, 0, ⟨[1], 1, 0, true⟩⟩ i o >>= fun _ => pure o)
      false ⟨some 0, 2, 1, 2, 0⟩ ⟨some 1, 1, 2, 1, 0⟩ false false ⟨⟨[some [1, 5], some [0, 0]]⟩, []⟩ =
    .throw ⟨⟨[some [1, 5], some [0, 0], some [], some []]⟩, [⟨1, 1⟩, ⟨0, 0⟩]⟩ := by decide +kernel

/-- Every call leaves two arrays without elements behind, which nothing refers to: the images into which the Java images were
wrapped had been default constructed. -/
theorem C74_leak_refuted :
    nativeThreshold (0 : Int) (fun i o => ThresholdOps.globalFixed (fun a b => decide (a ≤ b)) (fun a b => decide (b < a))
        (fun b => if b then 1 else 0) 0 3 true i o >>= fun o => pure ((), o))
      ⟨some 0, 2, 1, 2, 0⟩ ⟨some 1, 2, 1, 2, 0⟩ true true ⟨⟨[some [1, 5], some [7, 7]]⟩, []⟩ =
    .ok (some ()) ⟨⟨[some [1, 5], some [1, 0], some [], some [], none, none]⟩, []⟩ := by decide +kernel

/-- The hypotheses are met by a 2 × 2 window of a Java image and an output image. -/
example : JArgs (⟨[some [1, 2, 3, 4, 5, 6], some [0, 0, 0, 0]]⟩ : Heap Int) ⟨some 0, 2, 2, 3, 1⟩ ⟨some 1, 2, 2, 2, 0⟩
    (fun x y => 2 + x + 3 * y) := by
  have k : ∀ n : Nat, ((n : Int) < 2 ↔ n = 0 ∨ n = 1) := fun n => by omega
  refine ⟨⟨⟨0, _, rfl, rfl, by decide, fun y hy => ?_⟩, by decide, by decide, by decide, by decide⟩,
    ⟨⟨1, _, rfl, rfl, by decide, fun y hy => ?_⟩, by decide, by decide, by decide, by decide⟩, by decide, rfl, rfl, fun x y hx hy => ⟨0, rfl, ?_⟩⟩
  · rcases (k y).mp hy with rfl | rfl <;> decide
  · rcases (k y).mp hy with rfl | rfl <;> decide
  · rcases (k x).mp hx with rfl | rfl <;> rcases (k y).mp hy with rfl | rfl <;> rfl

end Boof
