import Verif.Spec.NativeConvolve
import Verif.Props.Native
import Verif.Props.GrowArray
/-
C80: convolution called from Java.
-/
namespace Boof
open GrowArray (Elem)
variable {V S : Type}

/-! ### lemmas -/

/-- The C++ border that a Java border becomes. -/
def JBorder.cpp [Zero V] : JBorder V → Border V
  | .rules .extend _ => .extend
  | .rules .reflect _ => .reflect
  | .rules .wrap _ => .wrap
  | _ => .value 0

theorem border_run [Zero V] [DecidableEq V] {jb : JBorder V} {n b a : Nat} (hj : jb.RowsOk n b a) :
    ∃ t bt, borderToType jb = some t ∧ (∀ h : Heap V, borderJavaToCpp t h = .ok bt h) ∧
      (∀ h : Heap V, createSB 0 bt h = .ok jb.cpp h) ∧ jb.cpp.Reach n b a := by
  rcases jb with v | ⟨_ | _ | _ | _, c⟩ | _
  · refine ⟨5, .zero, ?_, fun _ => rfl, fun _ => rfl, trivial⟩
    exact if_pos hj
  · exact ⟨1, .extended, rfl, fun _ => rfl, fun _ => rfl, trivial⟩
  · exact ⟨3, .reflect, rfl, fun _ => rfl, fun _ => rfl, hj⟩
  · exact ⟨4, .wrap, rfl, fun _ => rfl, fun _ => rfl, hj⟩
  · exact hj.elim
  · exact hj.elim

theorem extract1D_run (E : Elem S) (hz : E.ms E.zero = E.zero) {jk : JKernel S} {kw o : Nat} {c : Nat → S} (hk : jk.Ok1D kw o c)
    (hkw : kw < P32) (h : Heap V) : ∃ k, extractKernel1D E jk h = .ok k h ∧ k.Is1D kw o c := by
  have hok := hk.inside
  have e1 : toU32 jk.width = kw := by rw [hk.width, toU32_of_nonneg] <;> unfold P32 at * <;> omega
  have e2 : toU32 jk.offset = o := by rw [hk.offset, toU32_of_nonneg] <;> unfold P32 at * <;> omega
  obtain ⟨a0, a, f0, f1, f2, f3, f4, f5, -⟩ := fresh_array E hz kw
  obtain ⟨a', g1, g2, g3, g4, -⟩ := C13_set E f5 jk.data jk.data.length (Nat.le_refl _)
  refine ⟨⟨kw, o, a'⟩, ?_, rfl, rfl, g4.trans hk.length, fun i hi => ?_⟩
  · unfold extractKernel1D
    rw [e1, e2]
    have e : Kernel1D.new E kw o h = .ok ⟨kw, o, a⟩ h := by
      unfold Kernel1D.new
      rw [if_neg (by omega)]
      exact (M.bind_ok (ofGrow_ok f0 h)).trans ((M.bind_ok (ofGrow_ok f1 h)).trans rfl)
    exact (M.bind_ok e).trans ((M.bind_ok (ofGrow_ok g1 h)).trans rfl)
  · rw [List.take_length] at g3
    have := hk.coef i hi
    rw [← g3, GrowArray.elems] at this
    rw [← this, List.getElem?_take_of_lt]
    rw [g4, hk.length]; exact hi

theorem extract2D_run (E : Elem S) (hz : E.ms E.zero = E.zero) {jk : JKernel S} {kw o : Nat} {c : Nat → Nat → S}
    (hk : jk.Ok2D kw o c) (hkw : kw < 65536) (h : Heap V) : ∃ k, extractKernel2D E jk h = .ok k h ∧ k.Is2D kw o c := by
  have hok := hk.inside
  have e1 : toU32 jk.width = kw := by rw [hk.width, toU32_of_nonneg] <;> unfold P32 at * <;> omega
  have e2 : toU32 jk.offset = o := by rw [hk.offset, toU32_of_nonneg] <;> unfold P32 at * <;> omega
  obtain ⟨a0, a, f0, f1, f2, f3, f4, f5, -⟩ := fresh_array E hz (wrap32 (kw * kw))
  obtain ⟨a', g1, g2, g3, g4, -⟩ := C13_set E f5 jk.data jk.data.length (Nat.le_refl _)
  refine ⟨⟨kw, o, a'⟩, ?_, rfl, rfl, g4.trans hk.length, fun x y hx hy => ?_⟩
  · unfold extractKernel2D
    rw [e1, e2]
    have e : Kernel2D.new E kw o h = .ok ⟨kw, o, a⟩ h := by
      unfold Kernel2D.new
      rw [if_neg (by omega)]
      exact (M.bind_ok (ofGrow_ok f0 h)).trans ((M.bind_ok (ofGrow_ok f1 h)).trans rfl)
    exact (M.bind_ok e).trans ((M.bind_ok (ofGrow_ok g1 h)).trans rfl)
  · rw [List.take_length] at g3
    have := hk.coef x y hx hy
    rw [← g3, GrowArray.elems] at this
    rw [← this, List.getElem?_take_of_lt]
    rw [g4, hk.length]
    have := Nat.mul_le_mul_right kw (Nat.succ_le_of_lt hy)
    rw [Nat.succ_mul] at this
    omega

theorem int_run (p : Pass) (E : Elem Int) {outputBits border : Int} {r : IntTy} (hr : OutputType outputBits r) {bt : BorderType}
    {b : Border Int} {jk : JKernel Int} {k : Kernel Int} {h : Heap Int} (h1 : borderJavaToCpp border h = .ok bt h)
    (h2 : p.extract E jk h = .ok k h) (h3 : createSB 0 bt h = .ok b h) (ji jo : JImage) (c1 c2 : Bool) (pins : List Pin) :
    nativeImageConvolveInt p E 8 outputBits border jk ji jo c1 c2 ⟨h, pins⟩ =
      nativeConvolve 0 (p.call 0 (intArith U8 r) k b) true ji jo c1 c2 ⟨h, pins⟩ := by
  unfold nativeImageConvolveInt
  refine (J.bind_ok (J.lift_ok h1)).trans ?_
  rw [if_neg (by simp)]
  refine (J.bind_ok (J.lift_ok h2)).trans ((J.bind_ok (J.lift_ok h3)).trans ?_)
  rcases hr with ⟨rfl, rfl⟩ | ⟨rfl, rfl⟩
  · rw [if_pos rfl]
  · rw [if_neg (by decide), if_pos rfl]

theorem float_run {K : Type} [Field K] [DecidableEq K] (p : Pass) (E : Elem K) {border : Int} {bt : BorderType}
    {b : Border K} {jk : JKernel K} {k : Kernel K} {h : Heap K} (h1 : borderJavaToCpp border h = .ok bt h)
    (h2 : p.extract E jk h = .ok k h) (h3 : createSB 0 bt h = .ok b h) (ji jo : JImage) (c1 c2 : Bool) (pins : List Pin) :
    nativeImageConvolveFloat p E 32 32 border jk ji jo c1 c2 ⟨h, pins⟩ =
      nativeConvolve 0 (p.call 0 (fieldArith K) k b) false ji jo c1 c2 ⟨h, pins⟩ := by
  unfold nativeImageConvolveFloat
  refine (J.bind_ok (J.lift_ok h1)).trans ?_
  rw [if_neg (by simp)]
  exact (J.bind_ok (J.lift_ok h2)).trans (J.bind_ok (J.lift_ok h3))

theorem look_inside {n y : Nat} (hy : y < n) (r : JRule) : r.look n (y : Int) = y := by
  cases r <;> simp only [JRule.look]
  · unfold clampTo; omega
  · unfold mirrorTo
    by_cases h : n ≤ 1
    · simp only [if_pos h]; omega
    · have e : ((y : Int) % (2 * ((n : Int) - 1))).toNat = y := by
        rw [Int.emod_eq_of_lt (by omega) (by omega)]; omega
      simp only [e, if_neg h, if_pos hy]
  · unfold wrapTo
    rw [Int.emod_eq_of_lt (by omega) (by omega)]; omega
  · omega

/-- In the rows of the image, the C++ border shows the same as the Java border, whatever that does with columns. -/
theorem ext_row [Zero V] {jb : JBorder V} {n b a : Nat} (hj : jb.RowsOk n b a) {w ht : Nat} (f : Nat → Nat → V) (x : Int)
    {y : Nat} (hy : y < ht) : jb.cpp.ext w ht f x y = jb.ext w ht f x y := by
  rcases jb with v | ⟨_ | _ | _ | _, c⟩ | _
  · cases (show v = 0 from hj); rfl
  · have := look_inside hy c
    have e := look_inside hy .extend
    simp only [JBorder.cpp, Border.ext, JBorder.ext, JRule.look] at *
    rw [this, e]
  · have := look_inside hy c
    have e := look_inside hy .reflect
    simp only [JBorder.cpp, Border.ext, JBorder.ext, JRule.look] at *
    rw [this, e]
  · have := look_inside hy c
    have e := look_inside hy .wrap
    simp only [JBorder.cpp, Border.ext, JBorder.ext, JRule.look] at *
    rw [this, e]
  · exact hj.elim
  · exact hj.elim

/-- With one rule for both axes they agree everywhere. -/
theorem ext_uniform [Zero V] {jb : JBorder V} {n b a : Nat} (hj : jb.RowsOk n b a) (hu : jb.Uniform) {w ht : Nat}
    (f : Nat → Nat → V) (x y : Int) : jb.cpp.ext w ht f x y = jb.ext w ht f x y := by
  rcases jb with v | ⟨_ | _ | _ | _, c⟩ | _
  · cases (show v = 0 from hj); rfl
  · cases (show JRule.extend = c from hu); rfl
  · cases (show JRule.reflect = c from hu); rfl
  · cases (show JRule.wrap = c from hu); rfl
  · exact hj.elim
  · exact hj.elim

theorem reach_of_rowsOk [Zero V] {jb : JBorder V} {n b a : Nat} (hj : jb.RowsOk n b a) : jb.cpp.Reach n b a := by
  rcases jb with v | ⟨_ | _ | _ | _, c⟩ | _
  · trivial
  · trivial
  · exact hj
  · exact hj
  · exact hj.elim
  · exact hj.elim

/-! ### The functions for integer images -/

/-- `NativeConvolveImage.horizontal` for 8-bit images: for every Java kernel, every Java border it accepts and every pair of
images, each output pixel is the sum of the Java coefficients times the pixels which the Java border shows, converted to the
output type; nothing else changes in any Java array, and no array stays pinned.  MISSING: as in C47, reflected and wrapped
borders further than one image size away. -/
theorem C80_horizontal_partial (E : Elem Int) (hz : E.ms E.zero = E.zero) {bits : Int} {r : IntTy} (hr : OutputType bits r)
    {h : Heap Int} {ji jo : JImage} {f : Nat → Nat → Int} (ha : JArgs h ji jo f) {w ht : Nat} (ew : ji.width = w)
    (eh : ji.height = ht) {jk : JKernel Int} {kw o : Nat} {c : Nat → Int} (hk : jk.Ok1D kw o c) (hw : w + kw ≤ 2147483648)
    {jb : JBorder Int} (hj : jb.RowsOk w o (kw - 1 - o))
    (hs : ∀ x y : Nat, x < w → y < ht → sumF kw (fun k => |c k * jb.ext w ht f ((x : Int) + k - o) y|) ≤ 2147483647)
    (c1 c2 : Bool) (pins : List Pin) :
    ∃ t s', borderToType jb = some t ∧ nativeImageConvolveInt .horizontal E 8 bits t jk ji jo c1 c2 ⟨h, pins⟩ = .ok () s' ∧
      JavaEffect ⟨h, pins⟩ s' (fun _ => False) jo
        (fun x y => r.cast (sumF kw (fun k => c k * jb.ext w ht f ((x : Int) + k - o) y))) := by
  obtain ⟨t, bt, e1, e2, e3, e4⟩ := border_run hj
  obtain ⟨k, e5, e6⟩ := extract1D_run E hz hk (by unfold P32; omega) h
  obtain ⟨s', e7, e8⟩ := C74_horizontal_partial 0 (intArith U8 r) jb.cpp (F := fun x y => r.cast (sumF kw (fun k => c k * jb.ext w ht f ((x : Int) + k - o) y)))
    ha ew eh e6 hk.inside hw e4 (fun x y hx hy => by
      have e : ∀ k : Nat, jb.cpp.ext w ht f ((x : Int) + k - o) y = jb.ext w ht f ((x : Int) + k - o) y :=
        fun k => ext_row hj f _ hy
      rw [C47_integer (by simp only [e]; exact hs x y hx hy)]
      simp only [e]) true c1 c2 pins
  exact ⟨t, s', e1, (int_run .horizontal E hr (e2 h) e5 (e3 h) ji jo c1 c2 pins).trans e7, e8⟩

/-- `NativeConvolveImage.vertical` for 8-bit images, with a border that has one rule for both axes.  MISSING: as above, and
borders with two different rules (see `C80_rules_refuted`). -/
theorem C80_vertical_partial (E : Elem Int) (hz : E.ms E.zero = E.zero) {bits : Int} {r : IntTy} (hr : OutputType bits r)
    {h : Heap Int} {ji jo : JImage} {f : Nat → Nat → Int} (ha : JArgs h ji jo f) {w ht : Nat} (ew : ji.width = w)
    (eh : ji.height = ht) {jk : JKernel Int} {kw o : Nat} {c : Nat → Int} (hk : jk.Ok1D kw o c) (hw : ht + kw ≤ 2147483648)
    {jb : JBorder Int} (hj : jb.RowsOk ht o (kw - 1 - o)) (hu : jb.Uniform)
    (hs : ∀ x y : Nat, x < w → y < ht → sumF kw (fun k => |c k * jb.ext w ht f x ((y : Int) + k - o)|) ≤ 2147483647)
    (c1 c2 : Bool) (pins : List Pin) :
    ∃ t s', borderToType jb = some t ∧ nativeImageConvolveInt .vertical E 8 bits t jk ji jo c1 c2 ⟨h, pins⟩ = .ok () s' ∧
      JavaEffect ⟨h, pins⟩ s' (fun _ => False) jo
        (fun x y => r.cast (sumF kw (fun k => c k * jb.ext w ht f x ((y : Int) + k - o)))) := by
  obtain ⟨t, bt, e1, e2, e3, e4⟩ := border_run hj
  obtain ⟨k, e5, e6⟩ := extract1D_run E hz hk (by unfold P32; omega) h
  obtain ⟨s', e7, e8⟩ := C74_vertical_partial 0 (intArith U8 r) jb.cpp (F := fun x y => r.cast (sumF kw (fun k => c k * jb.ext w ht f x ((y : Int) + k - o))))
    ha ew eh e6 hk.inside hw e4 (fun x y hx hy => by
      have e : ∀ k : Nat, jb.cpp.ext w ht f x ((y : Int) + k - o) = jb.ext w ht f x ((y : Int) + k - o) :=
        fun k => ext_uniform hj hu f _ _
      rw [C48_integer (by simp only [e]; exact hs x y hx hy)]
      simp only [e]) true c1 c2 pins
  exact ⟨t, s', e1, (int_run .vertical E hr (e2 h) e5 (e3 h) ji jo c1 c2 pins).trans e7, e8⟩

/-- `NativeConvolveImage.convolve` for 8-bit images.  MISSING: as above, and kernels with 65536 or more columns. -/
theorem C80_convolve_partial (E : Elem Int) (hz : E.ms E.zero = E.zero) {bits : Int} {r : IntTy} (hr : OutputType bits r)
    {h : Heap Int} {ji jo : JImage} {f : Nat → Nat → Int} (ha : JArgs h ji jo f) {w ht : Nat} (ew : ji.width = w)
    (eh : ji.height = ht) {jk : JKernel Int} {kw o : Nat} {c : Nat → Nat → Int} (hk : jk.Ok2D kw o c) (hkw : kw < 65536)
    (hw : w + kw ≤ 2147483648) (hh : ht + kw ≤ 2147483648)
    {jb : JBorder Int} (hx : jb.RowsOk w o (kw - 1 - o)) (hy : jb.RowsOk ht o (kw - 1 - o)) (hu : jb.Uniform)
    (hs : ∀ x y : Nat, x < w → y < ht →
      sumF kw (fun j => sumF kw (fun i => |c i j * jb.ext w ht f ((x : Int) + i - o) ((y : Int) + j - o)|)) ≤ 2147483647)
    (c1 c2 : Bool) (pins : List Pin) :
    ∃ t s', borderToType jb = some t ∧ nativeImageConvolveInt .box E 8 bits t jk ji jo c1 c2 ⟨h, pins⟩ = .ok () s' ∧
      JavaEffect ⟨h, pins⟩ s' (fun _ => False) jo (fun x y => r.cast
        (sumF kw (fun j => sumF kw (fun i => c i j * jb.ext w ht f ((x : Int) + i - o) ((y : Int) + j - o))))) := by
  obtain ⟨t, bt, e1, e2, e3, e4⟩ := border_run hx
  obtain ⟨k, e5, e6⟩ := extract2D_run E hz hk hkw h
  obtain ⟨s', e7, e8⟩ := C74_convolve_partial 0 (intArith U8 r) jb.cpp (F := fun x y => r.cast
      (sumF kw (fun j => sumF kw (fun i => c i j * jb.ext w ht f ((x : Int) + i - o) ((y : Int) + j - o)))))
    ha ew eh e6 hk.inside hkw hw hh e4 (reach_of_rowsOk hy) (fun x y lx ly => by
      have e : ∀ i j : Nat, jb.cpp.ext w ht f ((x : Int) + i - o) ((y : Int) + j - o) =
        jb.ext w ht f ((x : Int) + i - o) ((y : Int) + j - o) := fun i j => ext_uniform hx hu f _ _
      rw [C49_integer (by simp only [e]; exact hs x y lx ly)]
      simp only [e]) true c1 c2 pins
  exact ⟨t, s', e1, (int_run .box E hr (e2 h) e5 (e3 h) ji jo c1 c2 pins).trans e7, e8⟩

/-! ### Floating point images (exact arithmetic) -/

section
variable {K : Type} [Field K] [DecidableEq K]

theorem C80_horizontalFloat_partial (E : Elem K) (hz : E.ms E.zero = E.zero)
    {h : Heap K} {ji jo : JImage} {f : Nat → Nat → K} (ha : JArgs h ji jo f) {w ht : Nat} (ew : ji.width = w)
    (eh : ji.height = ht) {jk : JKernel K} {kw o : Nat} {c : Nat → K} (hk : jk.Ok1D kw o c) (hw : w + kw ≤ 2147483648)
    {jb : JBorder K} (hj : jb.RowsOk w o (kw - 1 - o)) (c1 c2 : Bool) (pins : List Pin) :
    ∃ t s', borderToType jb = some t ∧ nativeImageConvolveFloat .horizontal E 32 32 t jk ji jo c1 c2 ⟨h, pins⟩ = .ok () s' ∧
      JavaEffect ⟨h, pins⟩ s' (fun _ => False) jo (fun x y => sumF kw (fun k => c k * jb.ext w ht f ((x : Int) + k - o) y)) := by
  obtain ⟨t, bt, e1, e2, e3, e4⟩ := border_run hj
  obtain ⟨k, e5, e6⟩ := extract1D_run E hz hk (by unfold P32; omega) h
  obtain ⟨s', e7, e8⟩ := C74_horizontal_partial 0 (fieldArith K) jb.cpp (F := fun x y => sumF kw (fun k => c k * jb.ext w ht f ((x : Int) + k - o) y))
    ha ew eh e6 hk.inside hw e4 (fun x y hx hy => by
      have e : ∀ k : Nat, jb.cpp.ext w ht f ((x : Int) + k - o) y = jb.ext w ht f ((x : Int) + k - o) y :=
        fun k => ext_row hj f _ hy
      rw [C47_exact]
      simp only [e]) false c1 c2 pins
  exact ⟨t, s', e1, (float_run .horizontal E (e2 h) e5 (e3 h) ji jo c1 c2 pins).trans e7, e8⟩

theorem C80_verticalFloat_partial (E : Elem K) (hz : E.ms E.zero = E.zero)
    {h : Heap K} {ji jo : JImage} {f : Nat → Nat → K} (ha : JArgs h ji jo f) {w ht : Nat} (ew : ji.width = w)
    (eh : ji.height = ht) {jk : JKernel K} {kw o : Nat} {c : Nat → K} (hk : jk.Ok1D kw o c) (hw : ht + kw ≤ 2147483648)
    {jb : JBorder K} (hj : jb.RowsOk ht o (kw - 1 - o)) (hu : jb.Uniform) (c1 c2 : Bool) (pins : List Pin) :
    ∃ t s', borderToType jb = some t ∧ nativeImageConvolveFloat .vertical E 32 32 t jk ji jo c1 c2 ⟨h, pins⟩ = .ok () s' ∧
      JavaEffect ⟨h, pins⟩ s' (fun _ => False) jo (fun x y => sumF kw (fun k => c k * jb.ext w ht f x ((y : Int) + k - o))) := by
  obtain ⟨t, bt, e1, e2, e3, e4⟩ := border_run hj
  obtain ⟨k, e5, e6⟩ := extract1D_run E hz hk (by unfold P32; omega) h
  obtain ⟨s', e7, e8⟩ := C74_vertical_partial 0 (fieldArith K) jb.cpp (F := fun x y => sumF kw (fun k => c k * jb.ext w ht f x ((y : Int) + k - o)))
    ha ew eh e6 hk.inside hw e4 (fun x y hx hy => by
      have e : ∀ k : Nat, jb.cpp.ext w ht f x ((y : Int) + k - o) = jb.ext w ht f x ((y : Int) + k - o) :=
        fun k => ext_uniform hj hu f _ _
      rw [C48_exact]
      simp only [e]) false c1 c2 pins
  exact ⟨t, s', e1, (float_run .vertical E (e2 h) e5 (e3 h) ji jo c1 c2 pins).trans e7, e8⟩

theorem C80_convolveFloat_partial (E : Elem K) (hz : E.ms E.zero = E.zero)
    {h : Heap K} {ji jo : JImage} {f : Nat → Nat → K} (ha : JArgs h ji jo f) {w ht : Nat} (ew : ji.width = w)
    (eh : ji.height = ht) {jk : JKernel K} {kw o : Nat} {c : Nat → Nat → K} (hk : jk.Ok2D kw o c) (hkw : kw < 65536)
    (hw : w + kw ≤ 2147483648) (hh : ht + kw ≤ 2147483648)
    {jb : JBorder K} (hx : jb.RowsOk w o (kw - 1 - o)) (hy : jb.RowsOk ht o (kw - 1 - o)) (hu : jb.Uniform)
    (c1 c2 : Bool) (pins : List Pin) :
    ∃ t s', borderToType jb = some t ∧ nativeImageConvolveFloat .box E 32 32 t jk ji jo c1 c2 ⟨h, pins⟩ = .ok () s' ∧
      JavaEffect ⟨h, pins⟩ s' (fun _ => False) jo (fun x y =>
        sumF kw (fun j => sumF kw (fun i => c i j * jb.ext w ht f ((x : Int) + i - o) ((y : Int) + j - o)))) := by
  obtain ⟨t, bt, e1, e2, e3, e4⟩ := border_run hx
  obtain ⟨k, e5, e6⟩ := extract2D_run E hz hk hkw h
  obtain ⟨s', e7, e8⟩ := C74_convolve_partial 0 (fieldArith K) jb.cpp (F := fun x y =>
      sumF kw (fun j => sumF kw (fun i => c i j * jb.ext w ht f ((x : Int) + i - o) ((y : Int) + j - o))))
    ha ew eh e6 hk.inside hkw hw hh e4 (reach_of_rowsOk hy) (fun x y lx ly => by
      have e : ∀ i j : Nat, jb.cpp.ext w ht f ((x : Int) + i - o) ((y : Int) + j - o) =
        jb.ext w ht f ((x : Int) + i - o) ((y : Int) + j - o) := fun i j => ext_uniform hx hu f _ _
      rw [C49_exact]
      simp only [e]) false c1 c2 pins
  exact ⟨t, s', e1, (float_run .box E (e2 h) e5 (e3 h) ji jo c1 c2 pins).trans e7, e8⟩

end

/-! ### What is rejected -/

/-- Java borders without a native counterpart throw in Java, before anything native happens. -/
theorem C80_border_rejected [Zero V] [DecidableEq V] (jb : JBorder V) :
    borderToType jb = none ↔ (∃ v, jb = .value v ∧ v ≠ 0) ∨ (∃ c, jb = .rules .other c) ∨ jb = .other := by
  rcases jb with v | ⟨_ | _ | _ | _, c⟩ | _ <;> simp [borderToType]

theorem border_known (border : Int) : (border ≠ 1 ∧ border ≠ 3 ∧ border ≠ 4 ∧ border ≠ 5) ∨
    ∃ bt, ∀ h : Heap V, borderJavaToCpp border h = .ok bt h := by
  unfold borderJavaToCpp
  split
  · exact Or.inr ⟨_, fun _ => rfl⟩
  split
  · exact Or.inr ⟨_, fun _ => rfl⟩
  split
  · exact Or.inr ⟨_, fun _ => rfl⟩
  split
  · exact Or.inr ⟨_, fun _ => rfl⟩
  · exact Or.inl ⟨by assumption, by assumption, by assumption, by assumption⟩

/-- Image types without native implementation throw, and so do kernels whose origin is outside: no Java array is changed or
pinned. -/
theorem C80_rejected (p : Pass) (E : Elem Int) (inputBits bits border : Int) (jk : JKernel Int) (ji jo : JImage) (c1 c2 : Bool)
    (s : Jvm Int)
    (hbad : (border ≠ 1 ∧ border ≠ 3 ∧ border ≠ 4 ∧ border ≠ 5) ∨ inputBits ≠ 8 ∨
      (0 ≤ jk.width ∧ jk.width < 2147483648 ∧ -2147483648 ≤ jk.offset ∧ jk.offset < 2147483648 ∧
        (jk.offset < 0 ∨ jk.width ≤ jk.offset))) :
    nativeImageConvolveInt p E inputBits bits border jk ji jo c1 c2 s = .throw s := by
  obtain ⟨h, pins⟩ := s
  unfold nativeImageConvolveInt
  by_cases hb : border ≠ 1 ∧ border ≠ 3 ∧ border ≠ 4 ∧ border ≠ 5
  · refine J.bind_throw (J.lift_throw ?_)
    unfold borderJavaToCpp
    rw [if_neg hb.1, if_neg hb.2.1, if_neg hb.2.2.1, if_neg hb.2.2.2]
    rfl
  · obtain ⟨bt, e⟩ : ∃ bt, ∀ h : Heap Int, borderJavaToCpp border h = .ok bt h := by
      unfold borderJavaToCpp
      split
      · exact ⟨_, fun _ => rfl⟩
      split
      · exact ⟨_, fun _ => rfl⟩
      split
      · exact ⟨_, fun _ => rfl⟩
      split
      · exact ⟨_, fun _ => rfl⟩
      · exact absurd ⟨by assumption, by assumption, by assumption, by assumption⟩ hb
    refine (J.bind_ok (J.lift_ok (e h))).trans ?_
    by_cases hi : inputBits ≠ 8
    · rw [if_pos hi]; rfl
    · rw [if_neg hi]
      refine J.bind_throw (J.lift_throw ?_)
      obtain ⟨w0, w1, o0, o1, ho⟩ := (hbad.resolve_left hb).resolve_left hi
      have hge : toU32 jk.offset ≥ toU32 jk.width := by
        unfold toU32 P32; omega
      cases p
      · exact M.bind_throw (by unfold Kernel1D.new; rw [if_pos hge]; rfl)
      · exact M.bind_throw (by unfold Kernel1D.new; rw [if_pos hge]; rfl)
      · exact M.bind_throw (by unfold Kernel2D.new; rw [if_pos hge]; rfl)

/-- Floating point images of other than 32 bits, on either side, throw: nothing changes, nothing is pinned. -/
theorem C80_rejected_float {K : Type} [Field K] [DecidableEq K] (p : Pass) (E : Elem K) (inputBits outputBits border : Int) (jk : JKernel K)
    (ji jo : JImage) (c1 c2 : Bool) (s : Jvm K)
    (hbad : (border ≠ 1 ∧ border ≠ 3 ∧ border ≠ 4 ∧ border ≠ 5) ∨ inputBits ≠ 32 ∨ outputBits ≠ 32) :
    nativeImageConvolveFloat p E inputBits outputBits border jk ji jo c1 c2 s = .throw s := by
  obtain ⟨h, pins⟩ := s
  unfold nativeImageConvolveFloat
  rcases border_known border with hb | ⟨bt, e⟩
  · refine J.bind_throw (J.lift_throw ?_)
    unfold borderJavaToCpp
    rw [if_neg hb.1, if_neg hb.2.1, if_neg hb.2.2.1, if_neg hb.2.2.2]
    rfl
  · refine (J.bind_ok (J.lift_ok (e h))).trans ?_
    have hb : ¬(border ≠ 1 ∧ border ≠ 3 ∧ border ≠ 4 ∧ border ≠ 5) := fun hb => by
      have := e h
      unfold borderJavaToCpp at this
      rw [if_neg hb.1, if_neg hb.2.1, if_neg hb.2.2.1, if_neg hb.2.2.2] at this
      cases this
    rw [if_pos (hbad.resolve_left hb)]
    rfl

example (s : Jvm ℚ) (jk : JKernel ℚ) (ji jo : JImage) :
    nativeImageConvolveFloat .box (⟨id, 4, 0, fun _ => 7⟩ : Elem ℚ) 32 64 1 jk ji jo true true s = .throw s :=
  C80_rejected_float _ _ _ _ _ _ _ _ _ _ _ (Or.inr (Or.inr (by decide)))

/-- Integer outputs of other than 16 and 32 bits throw after the input has been looked at: no array that exists is changed, nothing is pinned. -/
theorem C80_rejected_output (p : Pass) (E : Elem Int) (hz : E.ms E.zero = E.zero) {bits border : Int} (h16 : bits ≠ 16) (h32 : bits ≠ 32)
    {jk : JKernel Int} {kw o : Nat} {c : Nat → Int} {c' : Nat → Nat → Int} (hk : p ≠ .box → jk.Ok1D kw o c) (hk2 : p = .box → jk.Ok2D kw o c')
    (hkw : if p = .box then kw < 65536 else kw < 2147483648)
    {h : Heap Int} {ji jo : JImage} (hi : ji.Ok h) (hb : border = 1 ∨ border = 3 ∨ border = 4 ∨ border = 5) (c1 c2 : Bool) (pins : List Pin) :
    ∃ s', nativeImageConvolveInt p E 8 bits border jk ji jo c1 c2 ⟨h, pins⟩ = .throw s' ∧ s'.pins = pins ∧ ∀ b, b < h.next → s'.heap.get b = h.get b := by
  obtain ⟨a, l, ha, hl, -⟩ := hi.array
  obtain ⟨bt, e1, b, e2⟩ : ∃ bt, borderJavaToCpp border h = .ok bt h ∧ ∃ b, createSB 0 bt h = .ok b h := by
    rcases hb with rfl | rfl | rfl | rfl
    · exact ⟨.extended, rfl, _, rfl⟩
    · exact ⟨.reflect, rfl, _, rfl⟩
    · exact ⟨.wrap, rfl, _, rfl⟩
    · exact ⟨.zero, rfl, _, rfl⟩
  obtain ⟨k, e3⟩ : ∃ k, p.extract E jk h = .ok k h := by
    cases p with
    | box => obtain ⟨k, e, -⟩ := extract2D_run E hz (hk2 rfl) (by simpa using hkw) h; exact ⟨k, e⟩
    | horizontal => obtain ⟨k, e, -⟩ := extract1D_run E hz (hk (by decide)) (by simp at hkw; unfold P32; omega) h; exact ⟨k, e⟩
    | vertical => obtain ⟨k, e, -⟩ := extract1D_run E hz (hk (by decide)) (by simp at hkw; unfold P32; omega) h; exact ⟨k, e⟩
  refine ⟨⟨h.alloc [], pins⟩, ?_, rfl, fun b hb => ?_⟩
  · unfold nativeImageConvolveInt
    refine (J.bind_ok (J.lift_ok e1)).trans ?_
    rw [if_neg (by simp)]
    refine (J.bind_ok (J.lift_ok e3)).trans ((J.bind_ok (J.lift_ok e2)).trans ?_)
    rw [if_neg h16, if_neg h32]
    exact (J.bind_ok (hi.wrap 0 ha hl pins)).trans rfl
  · show (h.alloc []).get b = h.get b
    rw [Heap.get_alloc, if_neg (by omega)]

example : nativeImageConvolveInt .horizontal (intElem S32 (fun _ => 7)) 8 8 3 ⟨3, 1, [1, 10, 100]⟩ ⟨some 0, 2, 2, 3, 1⟩ ⟨some 1, 2, 2, 2, 0⟩
    true false ⟨⟨[some [1, 2, 3, 4, 5, 6], some [0, 0, 0, 0]]⟩, []⟩ =
    .throw ⟨⟨[some [1, 2, 3, 4, 5, 6], some [0, 0, 0, 0], some []]⟩, []⟩ := by decide +kernel

/-- A Java border whose rule for columns differs from the one for rows is accepted, and the rule for rows is used for both: the
picture with rows 1, 2, 3 convolved vertically with [0,0,1], rows extended, columns wrapped, shows 2, 3, 3 instead of 2, 3, 1. -/
theorem C80_rules_refuted :
    borderToType (.rules .extend .wrap : JBorder Int) = some 1 ∧
    nativeImageConvolveInt .vertical (intElem S32 (fun _ => 0)) 8 32 1 ⟨3, 1, [0, 0, 1]⟩ ⟨some 0, 1, 3, 1, 0⟩ ⟨some 1, 1, 3, 1, 0⟩
      false false ⟨⟨[some [1, 2, 3], some [0, 0, 0]]⟩, []⟩ =
      .ok () ⟨⟨[some [1, 2, 3], some [2, 3, 3], some [], some []]⟩, []⟩ ∧
    sumF 3 (fun k => [0, 0, 1].getD k 0 * (.rules .extend .wrap : JBorder Int).ext 1 3 (fun _ y => y + 1) 0 ((2 : Int) + k - 1)) = 1 := by
  decide +kernel

/-! ### Normalised convolution -/

/-- `NativeImageConvolveNormalized.horizontal` for 8-bit images: each output pixel is the average of the row under the Java kernel,
rounded as in C51, with the coefficients that fall outside the row left out. -/
theorem C80_normalizedHorizontal (E : Elem Int) (hz : E.ms E.zero = E.zero)
    {h : Heap Int} {ji jo : JImage} {f : Nat → Nat → Int} (ha : JArgs h ji jo f) {w ht : Nat} (ew : ji.width = w)
    (eh : ji.height = ht) {jk : JKernel Int} {kw o : Nat} {c : Nat → Int} (hk : jk.Ok1D kw o c) (hw : w + kw ≤ 2147483648)
    (hW : ∀ x, x < w → winWeight kw o c w x ≠ 0)
    (hs : ∀ x y, x < w → y < ht →
      winSum kw o (fun i => |c i|) w (fun i => |f i y|) x + winWeight kw o (fun i => |c i|) w x ≤ 2147483647)
    (hz0 : 0 < ht) (c1 c2 : Bool) (pins : List Pin) :
    ∃ s', nativeNormalizedInt false E jk ji jo c1 c2 ⟨h, pins⟩ = .ok () s' ∧
      JavaEffect ⟨h, pins⟩ s' (fun _ => False) jo (fun x y => U8.cast
        ((winSum kw o c w (fun i => f i y) x + (winWeight kw o c w x).tdiv 2).tdiv (winWeight kw o c w x))) := by
  obtain ⟨k, e5, e6⟩ := extract1D_run E hz hk (by unfold P32; omega) h
  obtain ⟨s', e7, e8⟩ := C74_normalizedHorizontal 0 (intArith U8 U8) (F := fun x y => U8.cast
        ((winSum kw o c w (fun i => f i y) x + (winWeight kw o c w x).tdiv 2).tdiv (winWeight kw o c w x)))
    ha ew eh e6 hk.inside hw
    (fun x hx => by rw [(C51_integer (t := U8) (r := U8) (hs x 0 hx hz0) (hW x hx)).2]; simp)
    (fun x y hx hy => (C51_integer (t := U8) (r := U8) (hs x y hx hy) (hW x hx)).1) false c1 c2 pins
  exact ⟨s', (J.bind_ok (J.lift_ok e5)).trans e7, e8⟩

/-- `NativeImageConvolveNormalized.vertical` for 8-bit images.  MISSING for the full property: kernels which are not shorter than
the image is tall and have coefficients that do not fit a pixel, as in C51. -/
theorem C80_normalizedVertical_partial (E : Elem Int) (hz : E.ms E.zero = E.zero)
    {h : Heap Int} {ji jo : JImage} {f : Nat → Nat → Int} (ha : JArgs h ji jo f) {w ht : Nat} (ew : ji.width = w)
    (eh : ji.height = ht) {jk : JKernel Int} {kw o : Nat} {c : Nat → Int} (hk : jk.Ok1D kw o c) (hh : ht + kw ≤ 2147483648)
    (hW : ∀ y, y < ht → winWeight kw o c ht y ≠ 0)
    (hs : ∀ x y, x < w → y < ht →
      winSum kw o (fun i => |c i|) ht (fun i => |f x i|) y + winWeight kw o (fun i => |c i|) ht y ≤ 2147483647)
    (hnar : ht ≤ kw → ∀ i, i < kw → 0 ≤ c i ∧ c i ≤ 255)
    (hz0 : 0 < w) (c1 c2 : Bool) (pins : List Pin) :
    ∃ s', nativeNormalizedInt true E jk ji jo c1 c2 ⟨h, pins⟩ = .ok () s' ∧
      JavaEffect ⟨h, pins⟩ s' (fun _ => False) jo (fun x y => U8.cast
        ((winSum kw o c ht (fun i => f x i) y + (winWeight kw o c ht y).tdiv 2).tdiv (winWeight kw o c ht y))) := by
  obtain ⟨k, e5, e6⟩ := extract1D_run E hz hk (by unfold P32; omega) h
  obtain ⟨s', e7, e8⟩ := C74_normalizedVertical_partial 0 (intArith U8 U8) (F := fun x y => U8.cast
        ((winSum kw o c ht (fun i => f x i) y + (winWeight kw o c ht y).tdiv 2).tdiv (winWeight kw o c ht y)))
    ha ew eh e6 hk.inside hh
    (fun hle i hi => IntTy.cast_of_inRange (t := U8) (by decide) (hnar hle i hi))
    (fun y hy => by rw [(C51_integer (t := U8) (r := U8) (hs 0 y hz0 hy) (hW y hy)).2]; simp)
    (fun x y hx hy => (C51_integer (t := U8) (r := U8) (hs x y hx hy) (hW y hy)).1) false c1 c2 pins
  exact ⟨s', (J.bind_ok (J.lift_ok e5)).trans e7, e8⟩

section
variable {K : Type} [Field K] [DecidableEq K]

/-- Floating point images: the exact weighted average. -/
theorem C80_normalizedHorizontalFloat (E : Elem K) (hz : E.ms E.zero = E.zero)
    {h : Heap K} {ji jo : JImage} {f : Nat → Nat → K} (ha : JArgs h ji jo f) {w ht : Nat} (ew : ji.width = w)
    (eh : ji.height = ht) {jk : JKernel K} {kw o : Nat} {c : Nat → K} (hk : jk.Ok1D kw o c) (hw : w + kw ≤ 2147483648)
    (hW : ∀ x, x < w → winWeight kw o c w x ≠ 0) (c1 c2 : Bool) (pins : List Pin) :
    ∃ s', nativeNormalizedFloat false E jk ji jo c1 c2 ⟨h, pins⟩ = .ok () s' ∧
      JavaEffect ⟨h, pins⟩ s' (fun _ => False) jo (fun x y => winSum kw o c w (fun i => f i y) x / winWeight kw o c w x) := by
  obtain ⟨k, e5, e6⟩ := extract1D_run E hz hk (by unfold P32; omega) h
  have e1 : ji.width.toNat = w := by omega
  have e2 : ji.height.toNat = ht := by omega
  obtain ⟨s', e7, e8⟩ := nativeConvolve_run 0 ha.input ha.output ha.apart ha.width ha.height ha.shows
    (F := fun x y => winSum kw o c w (fun i => f i y) x / winWeight kw o c w x)
    (process := fun i o => (if false = true then ConvolveNormalized.verticalF (fieldArith K) k i o
      else ConvolveNormalized.horizontalF (fieldArith K) k i o) >>= fun _ => pure o)
    (Op2.plain (by
      intro h1 i o' _ _ vi vo a1 a2 a3 a4 _ _ hl _ hne _ _ hf
      rw [e1] at a1 a3
      rw [e2] at a2 a4
      obtain ⟨h', e, p, -⟩ := C51_horizontal_float (fieldArith K) (C51_float_hypotheses K).1
        (F := fun x y => winSum kw o c w (fun i => f i y) x / winWeight kw o c w x) vi vo hf
        (fun _ _ _ _ _ _ _ _ e => absurd e hne) (by omega) (by omega) e6 hk.inside (by omega) hl
        (fun x _ => (C51_float_hypotheses K).2.2 _ _ _ _ _)
        (by rw [a1, a2]; exact fun x y hx _ => C51_exact (hW x hx))
      rw [if_neg (by simp)]
      exact ⟨o', h', (M.bind_ok e).trans rfl, rfl, p⟩)) false c1 c2 pins
  exact ⟨s', (J.bind_ok (J.lift_ok e5)).trans e7, e8⟩

theorem C80_normalizedVerticalFloat (E : Elem K) (hz : E.ms E.zero = E.zero)
    {h : Heap K} {ji jo : JImage} {f : Nat → Nat → K} (ha : JArgs h ji jo f) {w ht : Nat} (ew : ji.width = w)
    (eh : ji.height = ht) {jk : JKernel K} {kw o : Nat} {c : Nat → K} (hk : jk.Ok1D kw o c) (hh : ht + kw ≤ 2147483648)
    (hW : ∀ y, y < ht → winWeight kw o c ht y ≠ 0) (c1 c2 : Bool) (pins : List Pin) :
    ∃ s', nativeNormalizedFloat true E jk ji jo c1 c2 ⟨h, pins⟩ = .ok () s' ∧
      JavaEffect ⟨h, pins⟩ s' (fun _ => False) jo (fun x y => winSum kw o c ht (fun i => f x i) y / winWeight kw o c ht y) := by
  obtain ⟨k, e5, e6⟩ := extract1D_run E hz hk (by unfold P32; omega) h
  have e1 : ji.width.toNat = w := by omega
  have e2 : ji.height.toNat = ht := by omega
  obtain ⟨s', e7, e8⟩ := nativeConvolve_run 0 ha.input ha.output ha.apart ha.width ha.height ha.shows
    (F := fun x y => winSum kw o c ht (fun i => f x i) y / winWeight kw o c ht y)
    (process := fun i o => (if true = true then ConvolveNormalized.verticalF (fieldArith K) k i o
      else ConvolveNormalized.horizontalF (fieldArith K) k i o) >>= fun _ => pure o)
    (Op2.plain (by
      intro h1 i o' _ _ vi vo a1 a2 a3 a4 _ _ hl _ hne _ _ hf
      rw [e1] at a1 a3
      rw [e2] at a2 a4
      obtain ⟨h', e, p, -⟩ := C51_vertical_float (fieldArith K) (C51_float_hypotheses K).1
        (F := fun x y => winSum kw o c ht (fun i => f x i) y / winWeight kw o c ht y) vi vo hf
        (fun _ _ _ _ _ _ _ _ e => absurd e hne) (by omega) (by omega) e6 hk.inside (by omega) hl
        (fun _ i _ => (C51_float_hypotheses K).2.1 _)
        (fun x _ => (C51_float_hypotheses K).2.2 _ _ _ _ _)
        (by rw [a1, a2]; exact fun x y _ hy => C51_exact (hW y hy))
      rw [if_pos rfl]
      exact ⟨o', h', (M.bind_ok e).trans rfl, rfl, p⟩)) false c1 c2 pins
  exact ⟨s', (J.bind_ok (J.lift_ok e5)).trans e7, e8⟩

end

/-! ## C81: blurring from Java -/

section
variable {K : Type} [Field K] [LinearOrder K] [IsStrictOrderedRing K] [FloorRing K]

theorem gaussianWidth_run {sigma : K} {radius : Int} {kw : Nat} {s : K} (hj : JavaGaussian sigma radius kw s)
    (hr : radius ≤ 1073741823) (h : Heap V) :
    ∃ width, nativeGaussianWidth radius h = .ok width h ∧ GaussianSize sigma width kw s := by
  unfold nativeGaussianWidth
  have big : 0 < radius → (do let w ← S32.arith (2 * radius); S32.arith (w + 1) : M V Int) h = .ok (2 * radius + 1) h := by
    intro h0
    have l0 : S32.lo = -2147483648 := by decide
    have l1 : S32.hi = 2147483647 := by decide
    exact (M.bind_ok (IntTy.arith_run (by decide) ⟨by omega, by omega⟩ h)).trans
      (IntTy.arith_run (by decide) ⟨by omega, by omega⟩ h)
  rcases hj with ⟨hs, hr'⟩ | ⟨hs, hr'⟩ | ⟨hs, hr'⟩
  · refine ⟨2 * radius + 1, ?_, ?_⟩
    · rw [if_pos hr']; exact big hr'
    · have := GaussianSize.both (sigma := sigma) (width := 2 * radius + 1) hs (by omega)
      rwa [show (2 * radius + 1).toNat = 2 * radius.toNat + 1 by omega] at this
  · refine ⟨-1, ?_, GaussianSize.sigma hs (by omega)⟩
    rw [if_neg (by omega)]; rfl
  · refine ⟨2 * radius + 1, ?_, ?_⟩
    · rw [if_pos hr']; exact big hr'
    · have := GaussianSize.width (sigma := sigma) (width := 2 * radius + 1) hs (by omega)
      rw [show (2 * radius + 1).toNat = 2 * radius.toNat + 1 by omega, show (2 * radius.toNat + 1) / 2 = radius.toNat by omega] at this
      rwa [mul_comm ((radius.toNat : Nat) : K) 2] at this

theorem radius_le {sigma : K} {radius : Int} {kw : Nat} {s : K} (hj : JavaGaussian sigma radius kw s) (hw2 : kw < 2147483648) :
    radius ≤ 1073741823 := by
  rcases hj with ⟨hs, hr'⟩ | ⟨hs, hr'⟩ | ⟨hs, hr'⟩ <;> omega

/-- `NativeImageBlurOps.processGaussian` for 8-bit images: the output is blurred with the kernel the caller asked for, by giving
`sigma`, the radius or both. -/
theorem C81_gaussian (E : Elem K) (hz : E.ms E.zero = E.zero) {ex : K → K} {c0 : K} (hc0 : 0 < c0)
    (hex : ∀ x, 0 < ex x) (hmono : ∀ x y, x < y → ex x < ex y) {sigma : K} {radius : Int} {kw : Nat} {s : K}
    (hj : JavaGaussian sigma radius kw s) (junk : Nat → Int) {h : Heap Int} {ji jo js : JImage}
    {f : Nat → Nat → Int} (ha : JArgs h ji jo f) (hjs : js.Ok h) (hns : ji.data ≠ js.data) (hos : jo.data ≠ js.data)
    (hsw : js.width = ji.width) (hsh : js.height = ji.height) {w ht : Nat} (ew : ji.width = w)
    (eh : ji.height = ht) (hb : w + kw ≤ 2147483648) (hb2 : ht + kw ≤ 2147483648) (hkw : kw < 83886)
    (hpix : ∀ x y, x < w → y < ht → 0 ≤ f x y ∧ f x y ≤ 255) (c1 c2 c3 : Bool) (pins : List Pin) :
    ∃ c d s', nativeGaussianInt E (intElem S32 junk) ex c0 ji jo sigma radius js c1 c2 c3 ⟨h, pins⟩ = .ok () s' ∧
      IsGaussian ex s kw c ∧ IsIntKernel kw c d 100 ∧
      JavaEffect ⟨h, pins⟩ s' (fun b => js.data = some b) jo
        (fun x y => roundedAvg U8 kw (kw / 2) d ht (fun j => roundedAvg U8 kw (kw / 2) d w (fun i => f i j) x) y) := by
  obtain ⟨width, e, hsz⟩ := gaussianWidth_run hj (radius_le hj (by omega)) h
  obtain ⟨c, d, s', e', hg, hd, hJ⟩ := C74_gaussian E hz hc0 hex hmono hsz (t := U8) (by decide) junk (P := 255) ha hjs hns hos hsw hsh ew eh hb hb2
    (by omega) (by decide) (by decide)
    (fun x y hx hy => ⟨hpix x y hx hy, by rw [abs_of_nonneg (hpix x y hx hy).1]; exact (hpix x y hx hy).2⟩)
    (by have : U8.signedType.hi = 2147483647 := by decide
        rw [this]; push_cast; omega) c1 c2 c3 pins
  exact ⟨c, d, s', (J.bind_ok (J.lift_ok e)).trans e', hg, hd, hJ⟩

/-- The same for floating point images, exact arithmetic. -/
theorem C81_gaussianFloat (E : Elem K) (hz : E.ms E.zero = E.zero) {ex : K → K} {c0 : K} (hc0 : 0 < c0)
    (hex : ∀ x, 0 < ex x) (hmono : ∀ x y, x < y → ex x < ex y) {sigma : K} {radius : Int} {kw : Nat} {s : K}
    (hj : JavaGaussian sigma radius kw s) {h : Heap K} {ji jo js : JImage}
    {f : Nat → Nat → K} (ha : JArgs h ji jo f) (hjs : js.Ok h) (hns : ji.data ≠ js.data) (hos : jo.data ≠ js.data)
    (hsw : js.width = ji.width) (hsh : js.height = ji.height) {w ht : Nat} (ew : ji.width = w)
    (eh : ji.height = ht) (hb : w + kw ≤ 2147483648) (hb2 : ht + kw ≤ 2147483648) (hw2 : kw < 2147483648)
    (c1 c2 c3 : Bool) (pins : List Pin) :
    ∃ c s', nativeGaussianFloat E ex c0 ji jo sigma radius js c1 c2 c3 ⟨h, pins⟩ = .ok () s' ∧
      IsGaussian ex s kw c ∧
      JavaEffect ⟨h, pins⟩ s' (fun b => js.data = some b) jo
        (fun x y => exactAvg kw (kw / 2) c ht (fun j => exactAvg kw (kw / 2) c w (fun i => f i j) x) y) := by
  obtain ⟨width, e, hsz⟩ := gaussianWidth_run hj (radius_le hj hw2) h
  obtain ⟨c, s', e', hg, hJ⟩ := C74_gaussian_float E hz hc0 hex hmono hsz ha hjs hns hos hsw hsh ew eh hb hb2 hw2 c1 c2 c3 pins
  exact ⟨c, s', (J.bind_ok (J.lift_ok e)).trans e', hg, hJ⟩

/-- `NativeImageBlurOps.processMean` for 8-bit images and any positive radius.  MISSING for the full property: `hshape`, as in
C54. -/
theorem C81_mean_partial (junk : Nat → Int) {h : Heap Int} {ji jo js : JImage}
    {f : Nat → Nat → Int} (ha : JArgs h ji jo f) (hjs : js.Ok h) (hns : ji.data ≠ js.data) (hos : jo.data ≠ js.data)
    (hsw : js.width = ji.width) (hsh : js.height = ji.height) {radius : Int} {w ht : Nat} (ew : ji.width = w)
    (eh : ji.height = ht) (hr : 0 < radius) (hr2 : radius < 4194303) (hb : w + (2 * radius + 1) ≤ 2147483648)
    (hb2 : ht + (2 * radius + 1) ≤ 2147483648) (hshape : 2 * radius + 1 ≤ ht ∨ w < 2 * radius + 1)
    (hpix : ∀ x y, x < w → y < ht → 0 ≤ f x y ∧ f x y ≤ 255) (c1 c2 c3 : Bool) (pins : List Pin) :
    ∃ s', nativeMeanInt (intElem U8 junk) ji jo radius js c1 c2 c3 ⟨h, pins⟩ = .ok () s' ∧
      JavaEffect ⟨h, pins⟩ s' (fun b => js.data = some b) jo (meanImage U8 radius.toNat w ht f) := by
  have er : toU32 radius = radius.toNat := by
    obtain ⟨n, rfl⟩ := Int.eq_ofNat_of_zero_le (Int.le_of_lt hr)
    rw [toU32_of_nonneg (by omega) (by show _ < ((4294967296 : Nat) : Int); omega)]
  obtain ⟨s', e, hJ, -⟩ := C74_mean_partial (t := U8) (by decide) junk (r := radius.toNat) (P := 255) ha hjs hns hos hsw hsh ew eh (by omega)
    (by omega) (by omega) (by omega) (by decide) (by decide)
    (fun x y hx hy => ⟨hpix x y hx hy, by rw [abs_of_nonneg (hpix x y hx hy).1]; exact (hpix x y hx hy).2⟩)
    (by have : U8.signedType.hi = 2147483647 := by decide
        rw [this]; push_cast; omega) c1 c2 c3 pins
  unfold nativeMeanInt
  rw [er]
  exact ⟨s', e, hJ⟩

/-- Floating point images, exact arithmetic.  MISSING: `hshape`. -/
theorem C81_meanFloat_partial (E : Elem K) (hz : E.ms E.zero = E.zero) {h : Heap K} {ji jo js : JImage}
    {f : Nat → Nat → K} (ha : JArgs h ji jo f) (hjs : js.Ok h) (hns : ji.data ≠ js.data) (hos : jo.data ≠ js.data)
    (hsw : js.width = ji.width) (hsh : js.height = ji.height) {radius : Int} {w ht : Nat} (ew : ji.width = w)
    (eh : ji.height = ht) (hr : 0 < radius) (hb : w + (2 * radius + 1) ≤ 2147483648)
    (hb2 : ht + (2 * radius + 1) ≤ 2147483648) (hshape : 2 * radius + 1 ≤ ht ∨ w < 2 * radius + 1)
    (c1 c2 c3 : Bool) (pins : List Pin) :
    ∃ s', nativeMeanFloat E ji jo radius js c1 c2 c3 ⟨h, pins⟩ = .ok () s' ∧
      JavaEffect ⟨h, pins⟩ s' (fun b => js.data = some b) jo (meanImageK radius.toNat w ht f) := by
  have er : toU32 radius = radius.toNat := by
    obtain ⟨n, rfl⟩ := Int.eq_ofNat_of_zero_le (Int.le_of_lt hr)
    rw [toU32_of_nonneg (by omega) (by show _ < ((4294967296 : Nat) : Int); omega)]
  obtain ⟨s', e, hJ, -⟩ := C74_mean_float_partial E hz (r := radius.toNat) ha hjs hns hos hsw hsh ew eh (by omega)
    (by omega) (by omega) (by omega) c1 c2 c3 pins
  unfold nativeMeanFloat
  rw [er]
  exact ⟨s', e, hJ⟩

end

/-- A radius whose kernel would have more than 2147483647 coefficients overflows: the behaviour is undefined. -/
theorem C81_radius_refuted {K : Type} [Field K] [LinearOrder K] [IsStrictOrderedRing K] [FloorRing K] (E : Elem K) (EI : Elem Int)
    (ex : K → K) (c0 sigma : K) {radius : Int} (hr : 1073741824 ≤ radius) (ji jo js : JImage) (c1 c2 c3 : Bool) (s : Jvm Int) :
    nativeGaussianInt E EI ex c0 ji jo sigma radius js c1 c2 c3 s = .ub := by
  have l1 : S32.hi = 2147483647 := by decide
  have e : (nativeGaussianWidth radius : M Int Int) s.heap = .ub := by
    unfold nativeGaussianWidth
    rw [if_pos (by omega)]
    exact M.bind_ub (IntTy.arith_ub (by decide) (fun hc => by have := hc.2; omega) _)
  have e' : (J.lift (nativeGaussianWidth radius) : J Int Int) s = .ub := by unfold J.lift; rw [e]
  unfold nativeGaussianInt
  exact J.bind_ub e'

/-! ### The hypotheses can be met -/

/-- A 2 × 2 window of a Java image, a kernel of three coefficients, a reflecting border. -/
example : JKernel.Ok1D (S := Int) ⟨3, 1, [1, 10, 100]⟩ 3 1 (fun k => [1, 10, 100].getD k 0) ∧
    JKernel.Ok2D (S := Int) ⟨2, 1, [1, 2, 3, 4]⟩ 2 1 (fun x y => [1, 2, 3, 4].getD (y * 2 + x) 0) ∧
    (JBorder.rules .reflect .reflect : JBorder Int).RowsOk 2 1 1 ∧ (JBorder.rules .reflect .reflect : JBorder Int).Uniform ∧
    (JBorder.value 0 : JBorder Int).RowsOk 2 9 9 ∧ OutputType 16 S16 ∧ (intElem S32 (fun _ => 7)).ms (intElem S32 (fun _ => 7)).zero = (intElem S32 (fun _ => 7)).zero ∧
    (∀ x : Nat, x < 2 → ∀ y : Nat, y < 2 → sumF 3 (fun k => |[1, 10, 100].getD k 0 *
      (JBorder.rules .reflect .reflect : JBorder Int).ext 2 2 (fun x y => 2 + x + 3 * y) ((x : Int) + k - 1) y|) ≤ 2147483647) := by
  refine ⟨⟨rfl, rfl, by decide, rfl, fun i hi => ?_⟩, ⟨rfl, rfl, by decide, rfl, fun x y hx hy => ?_⟩, ⟨by decide, by decide⟩, rfl, rfl,
    Or.inl ⟨rfl, rfl⟩, by decide, by decide +kernel⟩
  · rcases i with _ | _ | _ | i <;> first | rfl | omega
  · rcases x with _ | _ | x <;> rcases y with _ | _ | y <;> first | rfl | omega

/-- The whole call, run: the reflected row `2 3` becomes `320+3`, ... -/
example : nativeImageConvolveInt .horizontal (intElem S32 (fun _ => 7)) 8 16 3 ⟨3, 1, [1, 10, 100]⟩ ⟨some 0, 2, 2, 3, 1⟩ ⟨some 1, 2, 2, 2, 0⟩
    true false ⟨⟨[some [1, 2, 3, 4, 5, 6], some [0, 0, 0, 0]]⟩, []⟩ =
    .ok () ⟨⟨[some [1, 2, 3, 4, 5, 6], some [323, 232, 656, 565], some [], some [], none]⟩, []⟩ := by decide +kernel

/-- Normalised: the weights of the coefficients inside are not zero. -/
example : (∀ x : Nat, x < 3 → winWeight 3 1 (fun k => ([1, 2, 1] : List Int).getD k 0) 3 x ≠ 0) ∧
    (∀ x : Nat, x < 3 → ∀ y : Nat, y < 2 → winSum 3 1 (fun i => |([1, 2, 1] : List Int).getD i 0|) 3 (fun i => |(i : Int) + 10 * y|) x +
      winWeight 3 1 (fun i => |([1, 2, 1] : List Int).getD i 0|) 3 x ≤ 2147483647) := by decide +kernel

example : nativeNormalizedInt true (intElem S32 (fun _ => 7)) ⟨3, 1, [1, 2, 1]⟩ ⟨some 0, 1, 3, 1, 0⟩ ⟨some 1, 1, 3, 1, 0⟩
    false true ⟨⟨[some [10, 20, 60], some [0, 0, 0]]⟩, []⟩ =
    .ok () ⟨⟨[some [10, 20, 60], some [13, 28, 47], some [], some [], none]⟩, []⟩ := by decide +kernel

/-- Three ways to ask for a Gaussian. -/
example : JavaGaussian (1 : ℚ) 2 5 1 ∧ JavaGaussian (1 : ℚ) (-1) (2 * (⌈((5 * 1 - 1) / 2 : ℚ)⌉ : Int).toNat + 1) 1 ∧
    JavaGaussian (0 : ℚ) 2 5 ((2 * ((2 : Nat) : ℚ) + 1) / 5) :=
  ⟨.both (by decide) (by decide), .sigma (by decide) (by decide), .radius (by decide) (by decide)⟩

end Boof
