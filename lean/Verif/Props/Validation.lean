import Verif.Lemmas.Validation
import Verif.Model.Plate

/-!
# C01, C02, C03: what the constructors accept
-/

namespace Composipy
open Spec

/-! ## C01 -/

/-- **C01** success: the constructor returns `m` exactly when `m` holds the converted arguments,
they are in the documented ranges, and `e1` is not zero. -/
theorem C01_ortho_ok (a : OrthoMat PyVal) (m : OrthoMat PyFloat) :
    a.init = .ok m ↔ OrthoConverts a m ∧ OrthoRanges m ∧ m.e1 ≠ .fin 0 := by
  rcases ortho_init_cases a with ⟨m', hc, hr, hz, h⟩ | ⟨m', hc, hr, hz, h⟩ | ⟨hn, h⟩ <;> rw [h]
  · constructor
    · intro h'; cases h'; exact ⟨hc, hr, hz⟩
    · rintro ⟨hc', -, -⟩; rw [OrthoConverts.unique hc hc']
  · constructor
    · intro h'; cases h'
    · rintro ⟨hc', -, hz'⟩; rw [OrthoConverts.unique hc' hc] at hz'; exact absurd hz hz'
  · constructor
    · intro h'; cases h'
    · rintro ⟨hc', hr', -⟩; exact absurd ⟨m, hc', hr'⟩ hn

/-- **C01** `ZeroDivisionError` exactly for in-range arguments with `e1 = 0`. -/
theorem C01_ortho_zeroDiv (a : OrthoMat PyVal) :
    a.init = .error .zeroDivisionError ↔
      ∃ m, OrthoConverts a m ∧ OrthoRanges m ∧ m.e1 = .fin 0 := by
  rcases ortho_init_cases a with ⟨m', hc, hr, hz, h⟩ | ⟨m', hc, hr, hz, h⟩ | ⟨hn, h⟩ <;> rw [h]
  · constructor
    · intro h'; cases h'
    · rintro ⟨m, hc', -, hz'⟩; rw [OrthoConverts.unique hc' hc] at hz'; exact absurd hz' hz
  · exact ⟨fun _ => ⟨m', hc, hr, hz⟩, fun _ => rfl⟩
  · constructor
    · intro h'; cases h'
    · rintro ⟨m, hc', hr', -⟩; exact absurd ⟨m, hc', hr'⟩ hn

/-- **C01** `ValueError` exactly when some argument does not convert or is out of range. -/
theorem C01_ortho_valueError (a : OrthoMat PyVal) :
    a.init = .error .valueError ↔ ¬ ∃ m, OrthoConverts a m ∧ OrthoRanges m := by
  rcases ortho_init_cases a with ⟨m', hc, hr, hz, h⟩ | ⟨m', hc, hr, hz, h⟩ | ⟨hn, h⟩ <;> rw [h]
  · exact ⟨(by intro h'; cases h'), fun h' => absurd ⟨m', hc, hr⟩ h'⟩
  · exact ⟨(by intro h'; cases h'), fun h' => absurd ⟨m', hc, hr⟩ h'⟩
  · exact ⟨fun _ => hn, fun _ => rfl⟩

/-- **C01** no other exception is possible. -/
theorem C01_ortho_only_errors (a : OrthoMat PyVal) (e : PyErr) (h : a.init = .error e) :
    e = .valueError ∨ e = .zeroDivisionError := by
  rcases ortho_init_cases a with ⟨m', _, _, _, h'⟩ | ⟨m', _, _, _, h'⟩ | ⟨_, h'⟩ <;>
    rw [h'] at h <;> cases h <;> simp

/-- **C01** in terms of single fields: an argument that cannot be converted, or a finite value below
the lower bound, is refused. -/
theorem C01_ortho_refuses_negative (a : OrthoMat PyVal) (r : ℝ) (hr : r < 0)
    (h : a.e1.toFloat = some (.fin r) ∨ a.e2.toFloat = some (.fin r) ∨
      a.g12.toFloat = some (.fin r) ∨ a.thickness.toFloat = some (.fin r) ∨
      a.t1.toFloat = some (.fin r) ∨ a.c1.toFloat = some (.fin r) ∨
      a.t2.toFloat = some (.fin r) ∨ a.c2.toFloat = some (.fin r) ∨
      a.s.toFloat = some (.fin r)) : a.init = .error .valueError := by
  rw [C01_ortho_valueError]
  rintro ⟨m, ⟨c1, c2, c3, c4, c5, c6, c7, c8, c9, c10⟩, r1, r2, r3, r4, r5, r6, r7, r8, r9, r10⟩
  have key : ∀ {v : PyVal} {x : PyFloat}, v.toFloat = some x → InRange 0 none x →
      v.toFloat = some (.fin r) → False := by
    intro v x hx hxr hv
    rw [hx] at hv; cases hv
    exact absurd hxr.1 (not_le.mpr hr)
  rcases h with h | h | h | h | h | h | h | h | h
  exacts [key c1 r1 h, key c2 r2 h, key c4 r4 h, key c5 r5 h, key c6 r6 h, key c7 r7 h,
    key c8 r8 h, key c9 r9 h, key c10 r10 h]

/-- **C01** the Poisson ratio is limited to `[-1/2, 1/2]`. -/
theorem C01_ortho_refuses_poisson (a : OrthoMat PyVal) (r : ℝ) (hr : 1/2 < |r|)
    (h : a.v12.toFloat = some (.fin r)) : a.init = .error .valueError := by
  rw [C01_ortho_valueError]
  rintro ⟨m, hc, hm⟩
  have h3 := hc.2.2.1
  have r3 := hm.2.2.1
  rw [h] at h3; cases h3' : m.v12 <;> rw [h3'] at h3 <;> cases h3
  rw [h3'] at r3
  have h1 := r3.1
  have h2 := r3.2 _ rfl
  rcases abs_cases r with ⟨h, _⟩ | ⟨h, _⟩ <;> rw [h] at hr <;> linarith

/-- Non-vacuity: a typical carbon ply is accepted, also when given as strings, and NaN strengths
and an infinite modulus pass. -/
example : (OrthoMat.args (.str "132e3".toList) (.num (.fin 10300)) (.num (.fin 0.25))
    (.num .pinf) (.num (.fin 0.127)) (t1 := .num .nan)).init =
    .ok { e1 := .fin 132000, e2 := .fin 10300, v12 := .fin 0.25, g12 := .pinf,
          thickness := .fin 0.127, t1 := .nan, c1 := .fin 0, t2 := .fin 0, c2 := .fin 0,
          s := .fin 0 } := by
  rw [C01_ortho_ok]
  have hp : parseFloat "132e3".toList = some (.fin 132000) := by decide +kernel
  refine ⟨?_, ?_, ?_⟩
  · simp only [OrthoConverts, OrthoMat.args, PyVal.toFloat, hp, Option.map, XF.toReal]
    norm_num
  · simp only [OrthoRanges, InRange]; norm_num; simp
  · intro h; norm_num [XF.fin.injEq] at h

/-- Non-vacuity of the `ZeroDivisionError` case. -/
example : (OrthoMat.args (.num (.fin 0)) (.num (.fin 1)) (.num (.fin 0)) (.num (.fin 1))
    (.num (.fin 1))).init = .error .zeroDivisionError := by
  rw [C01_ortho_zeroDiv]
  refine ⟨⟨.fin 0, .fin 1, .fin 0, .fin 1, .fin 1, .fin 0, .fin 0, .fin 0, .fin 0, .fin 0⟩, ?_, ?_, rfl⟩
  · simp [OrthoConverts, OrthoMat.args, PyVal.toFloat]
  · simp only [OrthoRanges, InRange]; norm_num; simp

/-! ## C02 -/

/-- **C02** with all seven values given, acceptance is exactly the in-range condition. -/
theorem C02_iso_ok (a : IsoMat PyVal) (m : IsoMat PyFloat) :
    a.init = .ok m ↔ IsoConverts a m ∧ IsoRanges m := by
  rcases iso_init_cases a with ⟨m', hc, hr, h⟩ | ⟨hn, h⟩ <;> rw [h]
  · constructor
    · intro h'; cases h'; exact ⟨hc, hr⟩
    · rintro ⟨hc', -⟩; rw [IsoConverts.unique hc hc']
  · constructor
    · intro h'; cases h'
    · rintro ⟨hc', hr'⟩; exact absurd ⟨m, hc', hr'⟩ hn

/-- **C02** everything else raises `ValueError`. -/
theorem C02_iso_valueError (a : IsoMat PyVal) (e : PyErr) :
    a.init = .error e ↔ e = .valueError ∧ ¬ ∃ m, IsoConverts a m ∧ IsoRanges m := by
  rcases iso_init_cases a with ⟨m', hc, hr, h⟩ | ⟨hn, h⟩ <;> rw [h]
  · constructor
    · intro h'; cases h'
    · rintro ⟨-, hn⟩; exact absurd ⟨m', hc, hr⟩ hn
  · constructor
    · intro h'; cases h'; exact ⟨rfl, hn⟩
    · rintro ⟨rfl, -⟩; rfl

/-- **C02** refuted part: leaving out any allowable (its default is `None`) always raises
`ValueError`, whatever the other arguments are. -/
theorem C02_iso_omitted_allowable_raises (a : IsoMat PyVal)
    (h : a.t = .none ∨ a.c = .none ∨ a.s = .none) : a.init = .error .valueError := by
  rw [C02_iso_valueError]
  refine ⟨rfl, ?_⟩
  rintro ⟨m, ⟨-, -, -, -, ct, cc, cs⟩, -⟩
  rcases h with h | h | h
  · rw [h] at ct; cases ct
  · rw [h] at cc; cases cc
  · rw [h] at cs; cases cs

/-- **C02** the claim of the signature ("the allowables may be omitted") is false of the code. -/
theorem C02_iso_optional_allowables_false :
    ¬ ∀ (e v g th : PyVal) (e' v' g' th' : PyFloat),
      e.toFloat = some e' → v.toFloat = some v' → g.toFloat = some g' → th.toFloat = some th' →
      InRange 0 none e' → InRange (-(1/2)) (some (1/2)) v' → InRange 0 none g' →
      InRange 0 none th' → ∃ m, (IsoMat.args e v g th).init = .ok m := by
  intro h
  obtain ⟨m, hm⟩ := h (.num (.fin 1)) (.num (.fin 0)) (.num (.fin 1)) (.num (.fin 1))
    (.fin 1) (.fin 0) (.fin 1) (.fin 1) rfl rfl rfl rfl (by simp [InRange])
    (by simp only [InRange]; norm_num) (by simp [InRange]) (by simp [InRange])
  rw [C02_iso_omitted_allowable_raises _ (Or.inl rfl)] at hm
  cases hm

/-- Non-vacuity: aluminium with all allowables given. -/
example : (IsoMat.args (.num (.fin 70000)) (.num (.fin 0.33)) (.num (.fin 26000)) (.num (.fin 1))
    (.num (.fin 300)) (.num (.fin 300)) (.num (.fin 200))).init =
    .ok ⟨.fin 70000, .fin 0.33, .fin 26000, .fin 1, .fin 300, .fin 300, .fin 200⟩ := by
  rw [C02_iso_ok]
  refine ⟨?_, ?_⟩
  · simp [IsoConverts, IsoMat.args, PyVal.toFloat]
  · simp only [IsoRanges, InRange]; norm_num; simp

/-! ## C03 -/

theorem plate_init_cases (p : PlateArgs) :
    (∃ d : PlateData, p.init = .ok d ∧ PlateAccepts p d) ∨
    ((¬ ∃ d, PlateAccepts p d) ∧ p.init = .error .valueError) := by
  unfold PlateArgs.init PlateAccepts
  rcases hp : p.dpropertyIsProperty with _ | _
  · right; simp [isInstance]
  rcases floatNumber_cases p.a 0 none with ⟨a, ca, ra, h1⟩ | ⟨n1, h1⟩
  on_goal 2 =>
    right; simp only [isInstance, h1]; refine ⟨?_, rfl⟩; rintro ⟨d, -, hc, -⟩; exact n1 _ hc.1 hc.2
  rcases floatNumber_cases p.b 0 none with ⟨b, cb, rb, h2⟩ | ⟨n2, h2⟩
  on_goal 2 =>
    right; simp only [isInstance, h1, h2]; refine ⟨?_, rfl⟩
    rintro ⟨d, -, -, hc, -⟩; exact n2 _ hc.1 hc.2
  rcases floatNumber_free p.Nxx with ⟨x, cx, h3⟩ | ⟨n3, h3⟩
  on_goal 2 =>
    right; simp only [isInstance, h1, h2, h3]; refine ⟨?_, rfl⟩
    rintro ⟨d, -, -, -, hc, -⟩; rw [n3] at hc; cases hc
  rcases floatNumber_free p.Nyy with ⟨y, cy, h4⟩ | ⟨n4, h4⟩
  on_goal 2 =>
    right; simp only [isInstance, h1, h2, h3, h4]; refine ⟨?_, rfl⟩
    rintro ⟨d, -, -, -, -, hc, -⟩; rw [n4] at hc; cases hc
  rcases floatNumber_free p.Nxy with ⟨z, cz, h5⟩ | ⟨n5, h5⟩
  on_goal 2 =>
    right; simp only [isInstance, h1, h2, h3, h4, h5]; refine ⟨?_, rfl⟩
    rintro ⟨d, -, -, -, -, -, hc, -⟩; rw [n5] at hc; cases hc
  rcases intNumber_cases p.m 1 with ⟨m, cm, rm, h6⟩ | ⟨n6, h6⟩
  on_goal 2 =>
    right; simp only [isInstance, h1, h2, h3, h4, h5, h6]; refine ⟨?_, rfl⟩
    rintro ⟨d, -, -, -, -, -, -, hc, -⟩; exact n6 _ hc.1 (by exact_mod_cast hc.2)
  rcases intNumber_cases p.n 1 with ⟨n, cn, rn, h7⟩ | ⟨n7, h7⟩
  on_goal 2 =>
    right; simp only [isInstance, h1, h2, h3, h4, h5, h6, h7]; refine ⟨?_, rfl⟩
    rintro ⟨d, -, -, -, -, -, -, -, hc⟩; exact n7 _ hc.1 (by exact_mod_cast hc.2)
  left
  refine ⟨⟨a, b, x, y, z, m, n⟩, ?_, rfl, ⟨ca, ra⟩, ⟨cb, rb⟩, cx, cy, cz, ⟨cm, by exact_mod_cast rm⟩,
    ⟨cn, by exact_mod_cast rn⟩⟩
  simp only [isInstance, h1, h2, h3, h4, h5, h6, h7]; rfl

theorem plateAccepts_unique {p : PlateArgs} {d d' : PlateData} (h : PlateAccepts p d)
    (h' : PlateAccepts p d') : d = d' := by
  obtain ⟨-, ⟨a1, -⟩, ⟨a2, -⟩, a3, a4, a5, ⟨a6, -⟩, ⟨a7, -⟩⟩ := h
  obtain ⟨-, ⟨b1, -⟩, ⟨b2, -⟩, b3, b4, b5, ⟨b6, -⟩, ⟨b7, -⟩⟩ := h'
  rw [a6, Option.some.injEq, XF.fin.injEq] at b6
  rw [a7, Option.some.injEq, XF.fin.injEq] at b7
  have e6 := Int.cast_injective b6
  have e7 := Int.cast_injective b7
  cases d; cases d'
  simp_all

/-- **C03** exact acceptance condition and stored values. -/
theorem C03_plate_ok (p : PlateArgs) (d : PlateData) : p.init = .ok d ↔ PlateAccepts p d := by
  rcases plate_init_cases p with ⟨d', h, hd⟩ | ⟨hn, h⟩ <;> rw [h]
  · constructor
    · intro h'; cases h'; exact hd
    · intro h'; rw [plateAccepts_unique hd h']
  · constructor
    · intro h'; cases h'
    · intro h'; exact absurd ⟨d, h'⟩ hn

/-- **C03** every refusal is a `ValueError`, and happens exactly when nothing is acceptable. -/
theorem C03_plate_err (p : PlateArgs) (e : PyErr) :
    p.init = .error e ↔ e = .valueError ∧ ¬ ∃ d, PlateAccepts p d := by
  rcases plate_init_cases p with ⟨d', h, hd⟩ | ⟨hn, h⟩ <;> rw [h]
  · constructor
    · intro h'; cases h'
    · rintro ⟨-, h'⟩; exact absurd ⟨d', hd⟩ h'
  · constructor
    · intro h'; cases h'; exact ⟨rfl, hn⟩
    · rintro ⟨rfl, -⟩; rfl

/-- **C03** NaN, infinite and fractional mode counts are refused. -/
theorem C03_plate_refuses_noninteger (p : PlateArgs)
    (h : p.m.toFloat = some .nan ∨ p.m.toFloat = some .pinf ∨ p.m.toFloat = some .ninf ∨
      ∃ r : ℝ, p.m.toFloat = some (.fin r) ∧ ∀ k : ℤ, (k : ℝ) ≠ r) :
    p.init = .error .valueError := by
  rw [C03_plate_err]
  refine ⟨rfl, ?_⟩
  rintro ⟨d, -, -, -, -, -, -, ⟨hm, -⟩, -⟩
  rw [hm] at h
  rcases h with h | h | h | ⟨r, h, hr⟩
  · cases h
  · cases h
  · cases h
  · simp only [Option.some.injEq, XF.fin.injEq] at h; exact hr _ h

/-- Non-vacuity: default mode counts, `b` given as text, NaN load. -/
example : (PlateArgs.args true (.num (.fin 400)) (.str " 3_00.5 ".toList) (Nxx := .num .nan)).init =
    .ok ⟨.fin 400, .fin (601/2), .nan, .fin 0, .fin 0, 10, 10⟩ := by
  rw [C03_plate_ok]
  have hp : parseFloat " 3_00.5 ".toList = some (.fin (601/2)) := by decide +kernel
  simp only [PlateAccepts, PlateArgs.args, PyVal.toFloat, hp, Option.map, XF.toReal, InRange]
  norm_num
  simp

end Composipy
