import Verif.Proofs.Convolve
namespace Boof
open M
variable {V S : Type} {h1 : Heap V} {g : Gray} {F : Nat → Nat → V}
variable {A : Arith V S} {fin : S → Option V} {k : Kernel S} {b : Border V} {a : Gray} {kw o : Nat} {p : Int → Int → V}

theorem congr_p {p : Int → Int → V} {x x' y y' : Int} (hx : x = x') (hy : y = y') : p x y = p x' y' := by
  rw [hx, hy]

theorem inner_rowSum {c : Nat → S} (hk : k.Is1D kw o c) (ha : Pixels h1 g F a (fun x y => p x y)) {x y src : Nat}
    (hox : o ≤ x) (hx : x + kw ≤ a.width + o) (hy : y < a.height) (hs : src = a.addr (x - o) y) {s : S}
    (e : rowAt A kw o c p x y = some s) : Computes h1 g F (ConvolveInner.rowSum A k a src) s := by
  unfold ConvolveInner.rowSum
  rw [hk.width]
  refine Computes.foldO (fun i s s' hi e => ?_) e
  refine Computes.bind (a := p ((x:Int) + i - o) y) ?_ (Computes.bind (Computes.get1D hk hi) (Computes.opt e))
  refine (ha.read (x - o + i) y _ (by omega) hy (by rw [hs]; unfold Gray.addr; omega)).congr ?_
  exact congr_p (by omega) (by omega)

theorem inner_columnSum {c : Nat → S} (hk : k.Is1D kw o c) (ha : Pixels h1 g F a (fun x y => p x y)) {x y src : Nat}
    (hoy : o ≤ y) (hy : y + kw ≤ a.height + o) (hx : x < a.width) (hs : src = a.addr x (y - o)) {s : S}
    (e : colAt A kw o c p x y = some s) : Computes h1 g F (ConvolveInner.columnSum A k a src) s := by
  unfold ConvolveInner.columnSum
  rw [hk.width]
  refine Computes.foldO (fun i s s' hi e => ?_) e
  refine Computes.bind (a := p x ((y:Int) + i - o)) ?_ (Computes.bind (Computes.get1D hk hi) (Computes.opt e))
  refine (ha.read x (y - o + i) _ hx (by omega) ?_).congr ?_
  · rw [hs]; unfold Gray.addr; rw [Nat.add_mul]; omega
  · exact congr_p (by omega) (by omega)

theorem inner_horizontal {c : Nat → S} (hv : g.Valid h1) (ew : g.width = a.width) (eh : g.height = a.height)
    (hk : k.Is1D kw o c) (ho : o < kw) (hkw : kw ≤ a.width) (ha : Pixels h1 g F a (fun x y => p x y))
    (hF : ∀ x y, o ≤ x → x + kw ≤ a.width + o → y < a.height → (rowAt A kw o c p x y).bind fin = some (F x y)) :
    Paints h1 g F (ConvolveInner.horizontal A fin k a g) (fun x _ => o ≤ x ∧ x + kw ≤ a.width + o) := by
  have wl := ha.valid.widthLt
  unfold P32 at wl
  have hn : sub32 a.width (sub32 k.width 1) = a.width - (kw - 1) := by
    have e : sub32 kw 1 = kw - 1 := sub32_of_le (by omega) (by show _ < (4294967296:Nat); omega)
    rw [hk.width, e, sub32_of_le (by omega) (by show _ < (4294967296:Nat); omega)]
  unfold ConvolveInner.horizontal
  rw [hn, hk.offset]
  refine (Paints.loop (R := fun y x' y' => y' = y ∧ o ≤ x' ∧ x' + kw ≤ a.width + o) (fun y hy => ?_)).congr
    (fun x y _ hy => ⟨by rintro ⟨_, _, _, h⟩; exact h, fun h => ⟨y, by omega, rfl, h⟩⟩)
  have r1 := hv.rowEnd_lt (y := y) (by omega)
  have r2 := ha.valid.rowEnd_lt hy
  rw [wrap32_of_lt (by omega), wrap32_of_lt (by omega)]
  refine (Paints.loop (R := fun j x' y' => x' = o + j ∧ y' = y) (fun j hj => ?_)).congr (fun x' y' _ hy => ?_)
  · refine Paints.finish (hF (o + j) y (by omega) (by omega) hy) (fun s hs => ?_)
      (Paints.wr hv (by omega) (by omega) (by unfold Gray.addr; omega) rfl)
    exact inner_rowSum hk ha (by omega) (by omega) hy (by unfold Gray.addr; omega) hs
  · constructor
    · rintro ⟨j, hj, rfl, rfl⟩; exact ⟨rfl, by omega, by omega⟩
    · rintro ⟨rfl, h, h'⟩; exact ⟨x' - o, by omega, by omega, rfl⟩

theorem inner_horizontalF {c : Nat → S} (hv : g.Valid h1) (ew : g.width = a.width) (eh : g.height = a.height)
    (hk : k.Is1D kw o c) (ho : o < kw) (hkw : kw ≤ a.width) (ha : Pixels h1 g F a (fun x y => p x y))
    (hl : a.dataLength < 2147483648)
    (hF : ∀ x y, o ≤ x → x + kw ≤ a.width + o → y < a.height → (rowAt A kw o c p x y).bind fin = some (F x y)) :
    Paints h1 g F (ConvolveInner.horizontalF A fin k a g) (fun x _ => o ≤ x ∧ x + kw ≤ a.width + o) := by
  have wl := ha.valid.widthLt
  unfold P32 at wl
  unfold ConvolveInner.horizontalF
  rw [hk.offset, hk.width]
  refine (Paints.loop (R := fun y x' y' => y' = y ∧ o ≤ x' ∧ x' + kw ≤ a.width + o) (fun y hy => ?_)).congr
    (fun x y _ hy => ⟨by rintro ⟨_, _, _, h⟩; exact h, fun h => ⟨y, by omega, rfl, h⟩⟩)
  have r1 := hv.rowEnd_lt (y := y) (by omega)
  have r2 := ha.valid.fits y hy
  unfold P32 at r1
  have e1 : wrap32 (g.offset + y * g.stride + o) = g.offset + y * g.stride + o :=
    wrap32_of_lt (by show _ < (4294967296:Nat); omega)
  have e2 : wrap32 (a.offset + y * a.stride) = a.offset + y * a.stride :=
    wrap32_of_lt (by show _ < (4294967296:Nat); omega)
  have e3 : toS32 (a.offset + y * a.stride) = ((a.offset + y * a.stride : Nat) : Int) := toS32_of_lt (by omega)
  have e4 : toU32 ((a.offset + y * a.stride : Nat) : Int) = a.offset + y * a.stride := by
    rw [toU32_of_nonneg (by omega) (by unfold P32; omega)]; omega
  have e5 : sub32 kw 1 = kw - 1 := sub32_of_le (by omega) (by show _ < (4294967296:Nat); omega)
  have e6 : wrap32 (a.offset + y * a.stride + a.width) = a.offset + y * a.stride + a.width :=
    wrap32_of_lt (by show _ < (4294967296:Nat); omega)
  have e7 : sub32 (a.offset + y * a.stride + a.width) (kw - 1) = a.offset + y * a.stride + a.width - (kw - 1) :=
    sub32_of_le (by omega) (by show _ < (4294967296:Nat); omega)
  have e8 : toS32 (a.offset + y * a.stride + a.width - (kw - 1)) = ((a.offset + y * a.stride + a.width - (kw - 1) : Nat) : Int) :=
    toS32_of_lt (by omega)
  simp only [e1, e2, e3, e4, e5, e6, e7, e8]
  have hn : (((a.offset + y * a.stride + a.width - (kw - 1) : Nat) : Int) - ((a.offset + y * a.stride : Nat) : Int)).toNat
      = a.width - (kw - 1) := by omega
  rw [hn]
  refine (Paints.loop (R := fun j x' y' => x' = o + j ∧ y' = y) (fun j hj => ?_)).congr (fun x' y' _ hy => ?_)
  · refine Paints.bind (a := a.offset + y * a.stride + j) ?_ ?_
    · unfold ConvolveInner.subscript
      rw [if_neg (by omega)]
      have : (((a.offset + y * a.stride : Nat) : Int) + (j : Int)).toNat = a.offset + y * a.stride + j := by omega
      rw [this]; exact Computes.pure _
    · rw [wrap32_of_lt (by show _ < (4294967296:Nat); omega)]
      refine Paints.finish (hF (o + j) y (by omega) (by omega) hy) (fun s hs => ?_)
        (Paints.wr hv (by omega) (by omega) (by unfold Gray.addr; omega) rfl)
      exact inner_rowSum hk ha (by omega) (by omega) hy (by unfold Gray.addr; omega) hs
  · constructor
    · rintro ⟨j, hj, rfl, rfl⟩; exact ⟨rfl, by omega, by omega⟩
    · rintro ⟨rfl, h, h'⟩; exact ⟨x' - o, by omega, by omega, rfl⟩

theorem inner_vertical {c : Nat → S} (hv : g.Valid h1) (ew : g.width = a.width) (eh : g.height = a.height)
    (hk : k.Is1D kw o c) (ho : o < kw) (hkw : kw ≤ a.height) (hh : a.height < 2147483648)
    (ha : Pixels h1 g F a (fun x y => p x y))
    (hF : ∀ x y, o ≤ y → y + kw ≤ a.height + o → x < a.width → (colAt A kw o c p x y).bind fin = some (F x y)) :
    Paints h1 g F (ConvolveInner.vertical A fin k a g) (fun _ y => o ≤ y ∧ y + kw ≤ a.height + o) := by
  unfold ConvolveInner.vertical
  rw [hk.offset, hk.width]
  have e1 : sub32 kw o = kw - o := sub32_of_le (by omega) (by show _ < (4294967296:Nat); omega)
  have e2 : sub32 (kw - o) 1 = kw - o - 1 := sub32_of_le (by omega) (by show _ < (4294967296:Nat); omega)
  have e3 : sub32 a.height (kw - o - 1) = a.height - (kw - o - 1) :=
    sub32_of_le (by omega) (by show _ < (4294967296:Nat); omega)
  have e4 : toS32 (a.height - (kw - o - 1)) = ((a.height - (kw - o - 1) : Nat) : Int) := toS32_of_lt (by omega)
  have e5 : toS32 o = (o : Int) := toS32_of_lt (by omega)
  simp only [e1, e2, e3, e4, e5]
  refine (Paints.loop (R := fun n x' y' => y' = o + n) (fun n hn => ?_)).congr (fun x' y' _ hy => ?_)
  · have e6 : toU32 ((o : Int) + (n : Int)) = o + n := by
      rw [toU32_of_nonneg (by omega) (by unfold P32; omega)]; omega
    have e7 : sub32 (o + n) o = n := by
      rw [sub32_of_le (by omega) (by show _ < (4294967296:Nat); omega)]; omega
    have r1 := hv.rowEnd_lt (y := o + n) (by omega)
    have r2 := ha.valid.rowEnd_lt (y := n) (by omega)
    simp only [e6, e7]
    rw [wrap32_of_lt (by omega), wrap32_of_lt (by omega)]
    refine (Paints.loop (R := fun x x' y' => x' = x ∧ y' = o + n) (fun x hx => ?_)).congr (fun x' y' _ hy => ?_)
    · refine Paints.finish (hF x (o + n) (by omega) (by omega) hx) (fun s hs => ?_)
        (Paints.wr hv (by omega) (by omega) (by unfold Gray.addr; omega) rfl)
      refine inner_columnSum hk ha (by omega) (by omega) hx ?_ hs
      unfold Gray.addr
      have : o + n - o = n := by omega
      rw [this]
    · exact ⟨fun ⟨_, _, _, e⟩ => e, fun e => ⟨x', by omega, rfl, e⟩⟩
  · constructor
    · rintro ⟨n, h, rfl⟩; omega
    · rintro ⟨h, h'⟩; exact ⟨y' - o, by omega, by omega⟩

theorem inner_verticalF {c : Nat → S} (hv : g.Valid h1) (ew : g.width = a.width) (eh : g.height = a.height)
    (hk : k.Is1D kw o c) (ho : o < kw) (hkw : kw ≤ a.height)
    (ha : Pixels h1 g F a (fun x y => p x y)) (hl : a.dataLength < 2147483648)
    (hF : ∀ x y, o ≤ y → y + kw ≤ a.height + o → x < a.width → (colAt A kw o c p x y).bind fin = some (F x y)) :
    Paints h1 g F (ConvolveInner.verticalF A fin k a g) (fun _ y => o ≤ y ∧ y + kw ≤ a.height + o) := by
  have hlt := ha.valid.heightLt
  unfold P32 at hlt
  unfold ConvolveInner.verticalF
  rw [hk.offset, hk.width]
  have e1 : sub32 kw o = kw - o := sub32_of_le (by omega) (by show _ < (4294967296:Nat); omega)
  have e2 : sub32 (kw - o) 1 = kw - o - 1 := sub32_of_le (by omega) (by show _ < (4294967296:Nat); omega)
  have e3 : sub32 a.height (kw - o - 1) = a.height - (kw - o - 1) :=
    sub32_of_le (by omega) (by show _ < (4294967296:Nat); omega)
  simp only [e1, e2, e3]
  refine (Paints.forRange (R := fun y x' y' => y' = y) (fun y y0 y1 => ?_)).congr (fun x' y' _ hy => ?_)
  · have r1 := hv.rowEnd_lt (y := y) (by omega)
    have r2 := ha.valid.fits (y - o) (by omega)
    unfold P32 at r1
    have e7 : sub32 y o = y - o := sub32_of_le (by omega) (by show _ < (4294967296:Nat); omega)
    simp only [e7]
    have e1 : wrap32 (g.offset + y * g.stride) = g.offset + y * g.stride :=
      wrap32_of_lt (by show _ < (4294967296:Nat); omega)
    have e2 : wrap32 (a.offset + (y - o) * a.stride) = a.offset + (y - o) * a.stride :=
      wrap32_of_lt (by show _ < (4294967296:Nat); omega)
    have e3 : toS32 (a.offset + (y - o) * a.stride) = ((a.offset + (y - o) * a.stride : Nat) : Int) := toS32_of_lt (by omega)
    have e4 : toU32 ((a.offset + (y - o) * a.stride : Nat) : Int) = a.offset + (y - o) * a.stride := by
      rw [toU32_of_nonneg (by omega) (by unfold P32; omega)]; omega
    have e6 : wrap32 (a.offset + (y - o) * a.stride + a.width) = a.offset + (y - o) * a.stride + a.width :=
      wrap32_of_lt (by show _ < (4294967296:Nat); omega)
    have e8 : toS32 (a.offset + (y - o) * a.stride + a.width) = ((a.offset + (y - o) * a.stride + a.width : Nat) : Int) := by
      exact toS32_of_lt (by omega)
    simp only [e1, e2, e3, e4, e6, e8]
    have hn : (((a.offset + (y - o) * a.stride + a.width : Nat) : Int) - ((a.offset + (y - o) * a.stride : Nat) : Int)).toNat
        = a.width := by omega
    rw [hn]
    refine (Paints.loop (R := fun x x' y' => x' = x ∧ y' = y) (fun x hx => ?_)).congr (fun x' y' _ hy => ?_)
    · rw [wrap32_of_lt (by show _ < (4294967296:Nat); omega)]
      refine Paints.finish (hF x y (by omega) (by omega) hx) (fun s hs => ?_)
        (Paints.wr hv (by omega) (by omega) (by unfold Gray.addr; omega) rfl)
      have e9 : toU32 (((a.offset + (y - o) * a.stride : Nat) : Int) + (x : Int)) = a.addr x (y - o) := by
        rw [toU32_of_nonneg (by omega) (by unfold P32; omega)]; unfold Gray.addr; omega
      rw [e9]
      refine Computes.foldO (fun i s s' hi e => ?_) hs
      refine Computes.bind (a := p x ((y:Int) + i - o)) ?_ (Computes.bind (Computes.get1D hk hi) (Computes.opt e))
      have hadr : a.addr x (y - o) + i * a.stride = a.addr x (y - o + i) := by
        unfold Gray.addr; rw [Nat.add_mul]; omega
      rw [hadr, wrap32_of_lt (ha.valid.addr_lt32 hx (by omega))]
      refine (ha.read x (y - o + i) _ hx (by omega) rfl).congr ?_
      exact congr_p (by omega) (by omega)
    · exact ⟨fun ⟨_, _, _, e⟩ => e, fun e => ⟨x', by omega, rfl, e⟩⟩
  · constructor
    · rintro ⟨n, h, h', rfl⟩; omega
    · rintro ⟨h, h'⟩; exact ⟨y', by omega, by omega, rfl⟩

theorem inner_convolve {c : Nat → Nat → S} (hv : g.Valid h1) (ew : g.width = a.width) (eh : g.height = a.height)
    (hk : k.Is2D kw o c) (ho : o < kw) (hkw : kw ≤ a.width) (hkh : kw ≤ a.height)
    (ha : Pixels h1 g F a (fun x y => p x y))
    (hF : ∀ x y, o ≤ x → x + kw ≤ a.width + o → o ≤ y → y + kw ≤ a.height + o →
      (boxAt A kw o c p x y).bind fin = some (F x y)) :
    Paints h1 g F (ConvolveInner.convolve A fin k a g)
      (fun x y => o ≤ x ∧ x + kw ≤ a.width + o ∧ o ≤ y ∧ y + kw ≤ a.height + o) := by
  have hlt := ha.valid.heightLt
  have wlt := ha.valid.widthLt
  unfold P32 at hlt wlt
  unfold ConvolveInner.convolve
  rw [hk.offset, hk.width]
  have e1 : sub32 kw o = kw - o := sub32_of_le (by omega) (by show _ < (4294967296:Nat); omega)
  have e2 : sub32 (kw - o) 1 = kw - o - 1 := sub32_of_le (by omega) (by show _ < (4294967296:Nat); omega)
  have e3 : sub32 a.height (kw - o - 1) = a.height - (kw - o - 1) :=
    sub32_of_le (by omega) (by show _ < (4294967296:Nat); omega)
  have e4 : sub32 a.width (kw - o - 1) = a.width - (kw - o - 1) :=
    sub32_of_le (by omega) (by show _ < (4294967296:Nat); omega)
  simp only [e1, e2, e3, e4]
  refine (Paints.forRange (R := fun y x' y' => y' = y ∧ o ≤ x' ∧ x' + kw ≤ a.width + o) (fun y y0 y1 => ?_)).congr
    (fun x' y' _ hy => ?_)
  · have r1 := hv.rowEnd_lt (y := y) (by omega)
    rw [wrap32_of_lt (by omega)]
    refine (Paints.forRange (R := fun x x' y' => x' = x ∧ y' = y) (fun x x0 x1 => ?_)).congr (fun x' y' _ hy => ?_)
    · rw [wrap32_of_lt (by omega)]
      refine Paints.finish (hF x y (by omega) (by omega) (by omega) (by omega)) (fun s hs => ?_)
        (Paints.wr hv (by omega) (by omega) (by unfold Gray.addr; omega) rfl)
      refine Computes.foldO (fun j s s' hj e => ?_) hs
      have r2 := ha.valid.rowEnd_lt (y := y - o + j) (by omega)
      have e5 : sub32 (y + j) o = y - o + j := by
        unfold sub32 P32; omega
      rw [e5, wrap32_of_lt (by omega), sub32_of_le (by omega) (by omega)]
      refine Computes.foldO (fun i s s' hi e => ?_) e
      refine Computes.bind (a := p ((x:Int) + i - o) ((y:Int) + j - o)) ?_
        (Computes.bind (Computes.get2D hk hi hj rfl) (Computes.opt e))
      refine (ha.read (x - o + i) (y - o + j) _ (by omega) (by omega) (by unfold Gray.addr; omega)).congr ?_
      exact congr_p (by omega) (by omega)
    · constructor
      · rintro ⟨x, _, _, rfl, rfl⟩; exact ⟨rfl, by omega, by omega⟩
      · rintro ⟨rfl, h, h'⟩; exact ⟨x', by omega, by omega, rfl, rfl⟩
  · constructor
    · rintro ⟨y, _, _, rfl, h, h'⟩; exact ⟨h, h', by omega, by omega⟩
    · rintro ⟨h, h', h2, h3⟩; exact ⟨y', by omega, by omega, rfl, h, h'⟩

end Boof
