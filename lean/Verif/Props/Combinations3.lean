import Verif.Props.Combinations2

/-! # Properties C78 and C93: monochromatic and analogous sets, opacity of combinations -/

open Outcome Fl Prog ObjectSpec ConvSpec BlendSpec CombineSpec

section
variable [FloatModel]

/-! ## C78 -/

/-- **C78** Amounts below 0 or above 1, infinite ones included, and counts below 1 are refused. -/
theorem C78_monochromatic_illegal (p : Ptr) (mode : ℤ) (amount : Fl) (n : ℤ) (hn : amount < 0 ∨ 1 < amount ∨ n ≤ 0) (h : Heap) :
    Refuses (Combine.create_monochromatic p mode amount n) h := by
  rw [Refuses, Combine.create_monochromatic, if_pos hn]
  rfl

/-- **C78 (partial)** Otherwise, for the three modes that exist, the result has the requested size, begins with the given pointer, and the other elements are new colours of the same
class; nothing else changes.  Missing: LCH colours (`C78_lch_violated`). -/
theorem C78_monochromatic_partial (s : ColorType) (c : Color) (h : Heap) (i : Nat) (hi : h.colors[i]? = some c) (hb : Base h.world s c) (mode : ℤ)
    (hm : mode = 0 ∨ mode = 1 ∨ mode = 2) (amount : Fl) (n : ℤ) (hn : ¬ (amount < 0 ∨ 1 < amount ∨ n ≤ 0)) :
    ∃ ks h', Combine.create_monochromatic (some i) mode amount n h = (ok ks, h') ∧ (ks.length : ℤ) = n ∧ ks[0]? = some (some i) ∧ Frame h h' ∧
      ∀ (j : ℕ) k, 0 < j → ks[j]? = some k → ∃ r, IsNew h h' k r ∧ IsColor s r ∧ r.space = c.space := by
  obtain ⟨ks, h', rs, e, f, p, l, ch⟩ := Combine.shades_run hb.target hm (amount * (-1)) (i := i) hb.space (n - 1).toNat h i c rfl hb.col rfl hi hi
  have hlen := p.length_eq
  refine ⟨some i :: ks, h', ?_, ?_, rfl, f, fun j k hj hk => ?_⟩
  · rw [Combine.create_monochromatic, if_neg hn]
    simp only [Prog.bind_def, Combine.load_some hi, hb.col.ctype, e, Prog.pure_run]
  · have : 1 ≤ n := by
      by_contra hh
      exact hn (Or.inr (Or.inr (by omega)))
    simp; omega
  · obtain ⟨j, rfl⟩ := Nat.exists_eq_succ_of_ne_zero hj.ne'
    rw [Nat.succ_eq_add_one, List.getElem?_cons_succ] at hk
    obtain ⟨hjl, rfl⟩ := List.getElem?_eq_some_iff.mp hk
    obtain ⟨q, b1, b2, b3⟩ := p.get hjl (by omega)
    have st := List.isChain_iff_getElem.mp ch j (by simp; omega)
    obtain ⟨d, d', x, y, z, -, -, -, -, -, -, -, -, c1, c2⟩ := st
    refine ⟨rs[j]'(by omega), ⟨q, b1, b2, b3⟩, ?_, ?_⟩
    · simpa using c1
    · simpa using c2

/-- **C78** A mode other than 0, 1 and 2 is refused as soon as a second colour has to be computed. -/
theorem C78_mode (s : ColorType) (c : Color) (h : Heap) (i : Nat) (hi : h.colors[i]? = some c) (hb : Base h.world s c) (mode : ℤ)
    (hm : ¬ (mode = 0 ∨ mode = 1 ∨ mode = 2)) (amount : Fl) (n : ℤ) (hn : 2 ≤ n) :
    ∃ h', Combine.create_monochromatic (some i) mode amount n h = (.throw ⟨.invalidArgument, true⟩, h') ∧ Frame h h' := by
  by_cases ha : amount < 0 ∨ 1 < amount ∨ n ≤ 0
  · exact ⟨h, C78_monochromatic_illegal _ _ _ _ ha h, Combine.frame_refl h⟩
  · obtain ⟨d, x, y, z, e, hd, -⟩ := hb.hsl
    obtain ⟨q, h1, e1, c1⟩ := Combine.convert_run hb.defined Combine.hsl_target hb.col hi e
    have f1 := c1.frame (by simp [Cie])
    refine ⟨h1, ?_, f1⟩
    obtain ⟨m, hm'⟩ : ∃ m, (n - 1).toNat = m + 1 := ⟨(n - 2).toNat, by omega⟩
    have h0 : mode ≠ 0 := fun hh => hm (Or.inl hh)
    have h1' : mode ≠ 1 := fun hh => hm (Or.inr (Or.inl hh))
    have h2 : mode ≠ 2 := fun hh => hm (Or.inr (Or.inr hh))
    rw [Combine.create_monochromatic, if_neg ha]
    simp only [Prog.bind_def, Combine.load_some hi, hb.col.ctype, hm', Combine.shades, Combine.shade, e1, if_neg h0, if_neg h1', if_neg h2]
    rfl

/-- **C78 violated** A mode that does not exist is accepted if only one colour is requested. -/
theorem C78_mode_violated (c : Color) (h : Heap) (i : Nat) (hi : h.colors[i]? = some c) (amount : Fl) (ha : ¬ (amount < 0 ∨ 1 < amount)) (mode : ℤ) :
    Combine.create_monochromatic (some i) mode amount 1 h = (ok [some i], h) := by
  rw [Combine.create_monochromatic, if_neg (by rintro (h | h | h) <;> [exact ha (Or.inl h); exact ha (Or.inr h); omega])]
  simp only [Prog.bind_def, Combine.load_some hi, show ((1 : ℤ) - 1).toNat = 0 from rfl, Combine.shades, Prog.pure_run]

/-- **C78 violated** NaN is no legal amount but is accepted. -/
theorem C78_nan_violated (s : ColorType) (c : Color) (h : Heap) (i : Nat) (hi : h.colors[i]? = some c) (hb : Base h.world s c) (mode : ℤ) (hm : mode = 0 ∨ mode = 1 ∨ mode = 2) (n : ℤ)
    (hn : 1 ≤ n) : ∃ ks h', Combine.create_monochromatic (some i) mode nan n h = (ok ks, h') := by
  obtain ⟨ks, h', e, -⟩ := C78_monochromatic_partial s c h i hi hb mode hm nan n (by
    rintro (h | h | h)
    · simp at h
    · simp at h
    · omega)
  exact ⟨ks, h', e⟩

/-- **C78 violated** For an LCH colour the second colour is a null pointer, and computing the third reads from it. -/
theorem C78_lch_violated (s : ColorType) (hs : s = .lchAb ∨ s = .lchUv) (c : Color) (h : Heap) (i : Nat) (hi : h.colors[i]? = some c) (hc : IsColor s c)
    (hw : h.world.Usable c.space) (amount : Fl) (ha : ¬ (amount < 0 ∨ 1 < amount)) (n : ℤ) (hn : 3 ≤ n) : ∃ h', Combine.create_monochromatic (some i) 0 amount n h = (.ub, h') := by
  have hsd : s ≠ .undefined := by rcases hs with rfl | rfl <;> simp
  obtain ⟨d, e, hd, -⟩ := val_to_total (s := s) (t := .hsl) (w := h.world) hsd (by simp) hc (fun _ _ => hw)
  obtain ⟨x, y, z, hx⟩ := Combine.hslColor hd
  obtain ⟨g0, g1, g2⟩ := Combine.getHsl (c := d) (x := x) (y := y) (z := z) (by rw [hx])
  obtain ⟨q, h1, e1, c1⟩ := Combine.convert_run hsd Combine.hsl_target hc hi e
  have f1 := c1.frame (by simp [Cie])
  have hnull : ∀ p g, Converter.convertTo p s g = (ok none, g) := by rcases hs with rfl | rfl <;> exact fun _ _ => rfl
  obtain ⟨m, hm'⟩ : ∃ m, (n - 1).toNat = m + 2 := ⟨(n - 3).toNat, by omega⟩
  have hren : Combine.renewed (some i) (some q) h1 = (ok (some h1.colors.length), ⟨h1.world, h1.colors ++ [Color.mkHue .hsl x y z c.alpha c.space]⟩) := by
    simp only [Combine.renewed, Prog.bind_def, Combine.load_some c1.here, Combine.load_some (f1.2 _ _ hi), lift, g0, g1, g2, Color.construct_hsl, Combine.alloc_run]
  obtain ⟨n', -, -, -, -, hsat⟩ := Adjust.sat_own (amount * (-1)) (Combine.mkHsl_color x y z c.alpha c.space)
  have hsat := hsat (h := ⟨h1.world, h1.colors ++ [Color.mkHue .hsl x y z c.alpha c.space]⟩) (i := h1.colors.length) (by simp)
  have hub : ∀ g, Converter.convertTo none .hsl g = (.ub, g) := fun g => rfl
  refine ⟨⟨h1.world, h1.colors ++ [n']⟩, ?_⟩
  rw [Combine.create_monochromatic, if_neg (by rintro (h | h | h) <;> [exact ha (Or.inl h); exact ha (Or.inr h); omega])]
  simp only [Prog.bind_def, Combine.load_some hi, hc.ctype, hm', Combine.shades, Combine.shade, e1, if_true, hren, hsat, hnull, hub]
  simp

/-- **C78** A distance of 0 and distances above 120 degrees are refused. -/
theorem C78_analogous_illegal [ExactModel] (p : Ptr) (v : Fl) (hv : feq v 0 ∨ fin 120 < v) (h : Heap) : Refuses (Combine.create_analogous p v) h := by
  have e : (360 : Fl) / 3 = fin 120 := by
    simp only [lit_def]
    rw [div_exact _ _ (by norm_num)]
    norm_num
  rw [Refuses, Combine.create_analogous, if_pos (by rw [e]; exact hv)]
  rfl

/-- **C78 (partial)** Analogous colours: the given colour between the two whose HSL hue is smaller and larger by the distance.  Missing: LCH colours. -/
theorem C78_analogous_partial (s : ColorType) (c : Color) (h : Heap) (i : Nat) (hi : h.colors[i]? = some c) (hb : Base h.world s c) (v : Fl)
    (hv : ¬ (feq v 0 ∨ v > 360 / 3)) :
    ∃ k1 k2 h' r1 r2, Combine.create_analogous (some i) v h = (ok [k1, some i, k2], h') ∧ IsNew h h' k1 r1 ∧ IsNew h h' k2 r2 ∧ Frame h h' ∧
      Rehued h.world s c (fun x => x - v) r1 ∧ Rehued h.world s c (fun x => x + v) r2 := by
  obtain ⟨d, x, y, z, e, hd, hcv⟩ := hb.hsl
  obtain ⟨k1, k2, h', r1, r2, e1, f, l1, l2, b1, b2, v1, v2⟩ := Combine.analogous_run hb.target hb.col (fun hh => hv (Or.inl hh)) (fun hh => hv (Or.inr hh)) hi hb.space e hd
  exact ⟨some k1, some k2, h', r1, r2, e1, ⟨k1, rfl, l1, b1⟩, ⟨k2, rfl, l2, b2⟩, f, hb.rehued (f := fun x => x - v) hd hcv v1, hb.rehued (f := fun x => x + v) hd hcv v2⟩

/-- **C78 (partial)** The split complement: the given colour between the two analogous colours of its complement.  Missing: LCH colours. -/
theorem C78_split_partial (s : ColorType) (c : Color) (h : Heap) (i : Nat) (hi : h.colors[i]? = some c) (hb : Base h.world s c) (v : Fl)
    (hv : ¬ (feq v 0 ∨ v > 360 / 3)) :
    ∃ k1 k2 h' r r1 r2, Combine.create_complimentary_split (some i) v h = (ok [k1, some i, k2], h') ∧ IsNew h h' k1 r1 ∧ IsNew h h' k2 r2 ∧ Frame h h' ∧
      Complements h.world c r ∧ Rehued h.world s r (fun x => x - v) r1 ∧ Rehued h.world s r (fun x => x + v) r2 := by
  obtain ⟨d, x, y, z, e, hd, hcv⟩ := hb.hsl
  obtain ⟨r, hr1, hr2, hr3, hr4⟩ := hb.complement
  obtain ⟨d', x', y', z', e', hd', hcv'⟩ := hr3.hsl
  have hr : Val.to .hsl s h.world (Color.mkHue .hsl (x + rnd 1 * (360 / rnd 2)) y z c.alpha c.space) = ok r := by
    obtain ⟨r', er', -⟩ := val_to_total (s := .hsl) (t := s) (w := h.world) (by simp) hb.defined (Combine.mkHsl_color (x + rnd 1 * (360 / rnd 2)) y z c.alpha c.space)
      (fun hh _ => hb.space (hh.resolve_left (by simp [Cie])))
    rw [er', hb.rehued_unique hr2 (hb.rehued (f := fun x => x + rnd 1 * (360 / rnd 2)) hd hcv er')]
  obtain ⟨k1, k2, h', r1, r2, e1, f, l1, l2, b1, b2, v1, v2⟩ :=
    Combine.split_run hb.target hb.col (fun hh => hv (Or.inl hh)) (fun hh => hv (Or.inr hh)) hi hb.space e hd hr e' hd'
  exact ⟨some k1, some k2, h', r, r1, r2, e1, ⟨k1, rfl, l1, b1⟩, ⟨k2, rfl, l2, b2⟩, f, hr1, hr3.rehued (f := fun x => x - v) hd' hcv' v1,
    hr3.rehued (f := fun x => x + v) hd' hcv' v2⟩

variable [ExactModel]

/-- One shade of an HSL colour. -/
theorem hsl_step {w : World} {o c c' : Color} {x y z a : ℝ} (ho : IsColor .hsl o) (hc : IsHsl c x y z) (hal : c.malpha = o.malpha) (hsp : c.space = o.space) (a0 : 0 ≤ a) (a1 : a ≤ 1) {mode : ℤ}
    (hm : mode = 0 ∨ mode = 1 ∨ mode = 2) (h : Combine.Step w .hsl o mode (fin (-a)) c c') :
    c' = { o with comps := [fin x, fin (y * if mode = 1 then 1 else 1 - a), fin (z * if mode = 0 then 1 else 1 - a)] } := by
  obtain ⟨d, d', x', y', z', e1, -, e2, e3, -, -, -, e4, -⟩ := h
  rw [Val.to, if_pos rfl, ok_inj] at e1 e4
  subst e1 e4
  rw [hc.comps] at e2
  simp only [List.cons.injEq, and_true] at e2
  obtain ⟨rfl, rfl, rfl⟩ := e2
  have hoal : o.alpha = o.malpha := by rw [Color.alpha, ho.cls]; rfl
  obtain ⟨xo, yo, zo, hoe⟩ := Combine.hslColor ho
  have hx : Color.clamp (fin x) 359 0 = fin x := by
    simpa using Color.clamp_of_inRange (v := fin x) (mn := 0) (mx := 359) (by simp [hc.x0, hc.x1])
  have hmk : Color.mkHue .hsl (fin x) (fin y) (fin z) o.alpha o.space = ⟨.hsl, .hsl, [fin x, fin y, fin z], o.malpha, 1, 0, o.space⟩ := by
    simp only [Color.mkHue, Color.hueReduce_id hc.x0 (by linarith [hc.x1]), hx, Hue.clamp01 hc.y0 hc.y1, Hue.clamp01 hc.z0 hc.z1, hoal]
  rw [hmk] at e3
  have key : ∀ v : ℝ, 0 ≤ v → v ≤ 1 → Color.clamp (fin v * (1 + fin (-a))) 1 0 = fin (v * (1 - a)) := by
    intro v v0 v1
    rw [show (1 : Fl) = fin 1 from one_def, add_exact, mul_exact, ← sub_eq_add_neg]
    have := Hue.clamp01 (x := v * (1 - a)) (mul_nonneg v0 (by linarith)) (by nlinarith)
    rwa [show (1 : Fl) = fin 1 from one_def] at this
  have hsat : ∀ u v : ℝ, 0 ≤ u → u ≤ 1 → Adjust.satVal (fin (-a)) ⟨.hsl, .hsl, [fin x, fin u, fin v], o.malpha, 1, 0, o.space⟩ =
      ok ⟨.hsl, .hsl, [fin x, fin (u * (1 - a)), fin v], o.malpha, 1, 0, o.space⟩ := by
    intro u v u0 u1
    rw [Adjust.satVal_eq _ rfl, key u u0 u1]
    split
    · rename_i hz
      have : a = 0 := by simpa [zero_def] using hz
      rw [this, sub_zero, mul_one]
    · rfl
  have hlum : ∀ u v : ℝ, 0 ≤ v → v ≤ 1 → Adjust.lumVal (fin (-a)) ⟨.hsl, .hsl, [fin x, fin u, fin v], o.malpha, 1, 0, o.space⟩ =
      ok ⟨.hsl, .hsl, [fin x, fin u, fin (v * (1 - a))], o.malpha, 1, 0, o.space⟩ := by
    intro u v v0 v1
    rw [Adjust.lumVal_eq _ rfl, key v v0 v1]
    split
    · rename_i hz
      have : a = 0 := by simpa [zero_def] using hz
      rw [this, sub_zero, mul_one]
    · rfl
  have hres : d' = ⟨.hsl, .hsl, [fin x, fin (y * if mode = 1 then 1 else 1 - a), fin (z * if mode = 0 then 1 else 1 - a)], o.malpha, 1, 0, o.space⟩ := by
    rcases hm with rfl | rfl | rfl
    · simp only [Combine.modeVal, if_true, hsat _ _ hc.y0 hc.y1, ok_inj] at e3
      simp [← e3]
    · simp only [Combine.modeVal, one_ne_zero, if_false, if_true, hlum _ _ hc.z0 hc.z1, ok_inj] at e3
      simp [← e3]
    · simp only [Combine.modeVal, OfNat.ofNat_ne_zero, OfNat.ofNat_ne_one, if_false, hsat _ _ hc.y0 hc.y1, ok_bind, hlum _ _ hc.z0 hc.z1, ok_inj] at e3
      simp [← e3]
  rw [hres]
  conv_rhs => rw [hoe]

/-- **C78** The monochromatic set of an HSL colour: in every step the saturation (modes 0 and 2) and the lightness (modes 1 and 2) decrease by the given part. -/
theorem C78_shades (c : Color) (x y z a : ℝ) (hc : IsHsl c x y z) (a0 : 0 ≤ a) (a1 : a ≤ 1) (h : Heap) (i : Nat) (hi : h.colors[i]? = some c) (mode : ℤ)
    (hm : mode = 0 ∨ mode = 1 ∨ mode = 2) (n : ℤ) (hn : 1 ≤ n) :
    ∃ ks h', Combine.create_monochromatic (some i) mode (fin a) n h = (ok ks, h') ∧ (ks.length : ℤ) = n ∧ ∀ j : ℕ, (j : ℤ) < n → ∃ q, ks[j]? = some (some q) ∧
      h'.colors[q]? = some { c with comps := [fin x, fin (y * (if mode = 1 then 1 else 1 - a) ^ j), fin (z * (if mode = 0 then 1 else 1 - a) ^ j)] } := by
  have hb := hc.base h.world
  have ham : fin a * (-1) = fin (-a) := by
    rw [show (-1 : Fl) = fin (-1) by simp, mul_exact, mul_neg_one]
  obtain ⟨ks, h', rs, e, f, p, l, ch⟩ := Combine.shades_run hb.target hm (fin (-a)) (i := i) hb.space (n - 1).toNat h i c rfl hb.col rfl hi hi
  have hlen := p.length_eq
  refine ⟨some i :: ks, h', ?_, by simp; omega, fun j hj => ?_⟩
  · rw [Combine.create_monochromatic, if_neg (by
      simp only [zero_def, one_def, fin_lt, gt_iff_lt]
      rintro (hh | hh | hh)
      · linarith
      · linarith
      · omega)]
    simp only [Prog.bind_def, Combine.load_some hi, hb.col.ctype, ham, e, Prog.pure_run]
  · have key : ∀ j : ℕ, ∀ hj : j < (c :: rs).length, (c :: rs)[j] =
        { c with comps := [fin x, fin (y * (if mode = 1 then 1 else 1 - a) ^ j), fin (z * (if mode = 0 then 1 else 1 - a) ^ j)] } := by
      intro j
      induction j with
      | zero =>
        intro _
        simp only [List.getElem_cons_zero, pow_zero, mul_one, ← hc.comps]
      | succ j ih =>
        intro hj
        have st := List.isChain_iff_getElem.mp ch j hj
        rw [ih (by omega)] at st
        have f01 : ∀ b : Prop, ∀ [Decidable b], 0 ≤ (if b then 1 else 1 - a) ∧ (if b then 1 else 1 - a) ≤ 1 := by
          intro b _
          split <;> constructor <;> linarith
        have fy := f01 (mode = 1)
        have fz := f01 (mode = 0)
        have py0 := pow_nonneg fy.1 j
        have py1 := pow_le_one₀ (n := j) fy.1 fy.2
        have pz0 := pow_nonneg fz.1 j
        have pz1 := pow_le_one₀ (n := j) fz.1 fz.2
        have hs : IsHsl { c with comps := [fin x, fin (y * (if mode = 1 then 1 else 1 - a) ^ j), fin (z * (if mode = 0 then 1 else 1 - a) ^ j)] } x
            (y * (if mode = 1 then 1 else 1 - a) ^ j) (z * (if mode = 0 then 1 else 1 - a) ^ j) :=
          ⟨⟨hc.col.cls, hc.col.ctype, rfl, hc.col.maxv, hc.col.minv⟩, rfl, hc.x0, hc.x1, mul_nonneg hc.y0 py0, mul_le_one₀ hc.y1 py0 py1, mul_nonneg hc.z0 pz0, mul_le_one₀ hc.z1 pz0 pz1⟩
        rw [hsl_step hc.col hs rfl rfl a0 a1 hm st]
        simp only [pow_succ, mul_assoc]
    rcases Nat.eq_zero_or_pos j with rfl | hj0
    · refine ⟨i, rfl, ?_⟩
      rw [f.2 _ _ hi]
      simp only [pow_zero, mul_one, ← hc.comps]
    · obtain ⟨j, rfl⟩ := Nat.exists_eq_succ_of_ne_zero hj0.ne'
      have hjl : j < ks.length := by omega
      obtain ⟨q, b1, b2, b3⟩ := p.get hjl (by omega)
      refine ⟨q, ?_, ?_⟩
      · rw [Nat.succ_eq_add_one, List.getElem?_cons_succ, List.getElem?_eq_getElem hjl, ← b1]; rfl
      · rw [b3]
        have := key (j + 1) (by simp; omega)
        rw [List.getElem_cons_succ] at this
        simpa using this

/-- **C78 (partial)** Analogous colours of HSL colours.  Missing: hues that end up strictly between 359 and 360 degrees. -/
theorem C78_analogous_hsl_partial (c : Color) (x y z v : ℝ) (hc : IsHsl c x y z) (v0 : 0 < v) (v1 : v ≤ 120) (h : Heap) (i : Nat) (hi : h.colors[i]? = some c)
    (hg : angle (x - v) ≤ 359 ∧ angle (x + v) ≤ 359) :
    ∃ k1 k2 h' , Combine.create_analogous (some i) (fin v) h = (ok [k1, some i, k2], h') ∧ IsNew h h' k1 { c with comps := [fin (angle (x - v)), fin y, fin z] } ∧
      IsNew h h' k2 { c with comps := [fin (angle (x + v)), fin y, fin z] } ∧ Frame h h' := by
  have e : (360 : Fl) / 3 = fin 120 := by
    simp only [lit_def]
    rw [div_exact _ _ (by norm_num)]
    norm_num
  obtain ⟨k1, k2, h', r1, r2, e1, n1, n2, f, q1, q2⟩ := C78_analogous_partial .hsl c h i hi (hc.base _) (fin v) (by
    rw [e]
    simp only [zero_def, feq_fin, gt_iff_lt, fin_lt]
    rintro (hh | hh) <;> linarith)
  rw [hc.rehued (u := x - v) (by simp) q1, min_eq_left hg.1] at n1
  rw [hc.rehued (u := x + v) (by simp) q2, min_eq_left hg.2] at n2
  exact ⟨k1, k2, h', e1, n1, n2, f⟩

/-- Cases: four shades of a colour, fading in saturation and lightness; the neighbours of red at 30 degrees. -/
example (w : World) : ∃ c ks h' q r, IsHsl c 120 1 0.5 ∧ Combine.create_monochromatic (some 0) 2 (fin 0.5) 4 ⟨w, [c]⟩ = (ok ks, h') ∧ ks.length = 4 ∧ ks[3]? = some (some q) ∧
    h'.colors[q]? = some r ∧ r.comps = [fin 120, fin 0.125, fin 0.0625] := by
  obtain ⟨c, -, hc, -⟩ := exists_hsl 120 1 0.5 1 none (by norm_num)
  obtain ⟨ks, h', e, l, all⟩ := C78_shades c 120 1 0.5 0.5 hc (by norm_num) (by norm_num) ⟨w, [c]⟩ 0 rfl 2 (by norm_num) 4 (by norm_num)
  obtain ⟨q, e2, e3⟩ := all 3 (by norm_num)
  exact ⟨c, ks, h', q, _, hc, e, by exact_mod_cast l, e2, e3, by norm_num⟩
example (w : World) : ∃ c k1 k2 h' r, IsHsl c 0 1 0.5 ∧ Combine.create_analogous (some 0) (fin 30) ⟨w, [c]⟩ = (ok [k1, some 0, k2], h') ∧ IsNew ⟨w, [c]⟩ h' k1 r ∧
    r.comps = [fin 330, fin 1, fin 0.5] := by
  obtain ⟨c, -, hc, -⟩ := exists_hsl 0 1 0.5 1 none (by norm_num)
  have h30 : angle (0 + 30) = 30 := by rw [angle, zero_add, Color.fract_small (by norm_num) (by norm_num)]
  have h330 : angle (0 - 30) = 330 := by
    have : ((0 : ℝ) - 30) / 360 = 330 / 360 + (-1 : ℤ) := by norm_num
    rw [angle, this, Int.fract_add_intCast, Color.fract_small (by norm_num) (by norm_num)]
  obtain ⟨k1, k2, h', e, n1, -⟩ := C78_analogous_hsl_partial c 0 1 0.5 30 hc (by norm_num) (by norm_num) ⟨w, [c]⟩ 0 rfl (by rw [h30, h330]; norm_num)
  exact ⟨c, k1, k2, h', _, hc, e, n1, by rw [h330]⟩
omit [ExactModel] in
example (w : World) (c : Color) : Refuses (Combine.create_monochromatic (some 0) 0 (fin 1.5) 3) ⟨w, [c]⟩ ∧ Refuses (Combine.create_monochromatic (some 0) 0 1 0) ⟨w, [c]⟩ :=
  ⟨C78_monochromatic_illegal _ _ _ _ (Or.inr (Or.inl (by simp only [one_def, fin_lt]; norm_num))) _, C78_monochromatic_illegal _ _ _ _ (Or.inr (Or.inr le_rfl)) _⟩

/-! ## C93 -/

/-- **C93 (partial)** The colours of a combination have the opacity of the given colour.  Missing: colours stored with eight bits (`C93_eight_bit_violated`) and colours
that are black in HSL and of another class than HSL (`C93_black_violated`). -/
theorem C93_opacity_partial (s : ColorType) (c d : Color) (z : Fl) (h : Heap) (i : Nat) (hi : h.colors[i]? = some c) (hb : Base h.world s c) (h8 : ¬ EightBit s)
    (hd : Converts h.world c .hsl d) (hz : d.comps[2]? = some z) (hz0 : s = .hsl ∨ ¬ feq z 0) (a : ℝ) (a0 : 0 ≤ a) (a1 : a ≤ 1) (ha : HasOpacity c a)
    (n : ℤ) (h2 : 2 ≤ n) (h360 : n ≤ 360) :
    ∃ ks h', Combine.create_combination (some i) n h = (ok ks, h') ∧ ∀ j : ℕ, (j : ℤ) < n → ∃ q r, ks[j]? = some (some q) ∧ h'.colors[q]? = some r ∧ HasOpacity r a := by
  obtain ⟨ks, h', e1, e2⟩ := C76_converted s c h i hi hb n h2 h360
  obtain ⟨ks', h'', e1', l, k0, f, all⟩ := C75_size_partial s c h i hi hb n h2 h360
  rw [e1, Prod.mk.injEq, ok_inj] at e1'
  obtain ⟨rfl, rfl⟩ := e1'
  have hcl : Color.scalesAlpha s = false := by cases s <;> simp_all [EightBit, Color.scalesAlpha]
  have hma : c.malpha = fin a := (hasOpacity_iff hb.col a).mp ha
  have hal : c.alpha = fin a := by rw [Color.alpha, hb.col.cls, hcl, hma]; rfl
  refine ⟨ks, h', e1, fun j hj => ?_⟩
  rcases Nat.eq_zero_or_pos j with rfl | hj0
  · exact ⟨i, c, k0, f.2 _ _ hi, ha⟩
  · obtain ⟨k, r, a1', ⟨q, rfl, -, a2⟩, d', x', y', z', e, b1, b2, b3, b4⟩ := e2 j hj0 hj
    obtain ⟨r', ⟨q', hq', -, hr'⟩, hcol, -⟩ := all j _ hj0 a1'
    rw [Option.some.injEq] at hq'
    subst hq'
    obtain rfl : r = r' := by rw [a2] at hr'; exact Option.some.inj hr'
    refine ⟨q, r, a1', a2, (hasOpacity_iff hcol a).mpr ?_⟩
    have hdd : d' = d := by
      have := (converts_iff hb.defined (by simp) hb.col).mp b1
      rw [(converts_iff hb.defined (by simp) hb.col).mp hd, ok_inj] at this
      exact this.symm
    subst hdd
    rw [b2] at hz
    have hz : z' = z := by simpa using hz
    subst hz
    rw [Color.construct_hsl, ok_inj] at b3
    have he : IsColor .hsl e := b3 ▸ Combine.mkHsl_color ..
    have hem : e.malpha = fin a := by rw [← b3, ← hal]; rfl
    have b4 := (converts_iff (by simp) hb.defined he).mp b4
    by_cases hs : s = .hsl
    · subst hs
      rw [Val.to, if_pos rfl, ok_inj] at b4
      rw [← b4, hem]
    · have hz0 := hz0.resolve_left hs
      have hdv := (converts_iff hb.defined (by simp) hb.col).mp hd
      rw [Val.to, if_neg hs] at hdv
      rw [Val.to, if_neg (Ne.symm hs)] at b4
      have hrng := ((Conv.good_direct s .hsl hb.defined (by simp) hs).result _ _ _ hdv)
      have hzr : InRange 0 1 z' := by
        have := hrng.rng 2 (by rw [b2]; simp)
        simp only [hrng.col.ctype, b2] at this
        simpa [channelRange] using this
      have hec : e.comps[2]? = some z' := by
        rw [← b3]
        simp only [Color.mkHue, List.getElem?_cons_succ, List.getElem?_cons_zero, Option.some.injEq]
        simpa using Color.clamp_of_inRange hzr
      have hq := Conv.alpha_direct .hsl s (by simp) hb.defined (Ne.symm hs) h.world e r a he (fun _ v hv => by rw [hec, Option.some.injEq] at hv; rwa [← hv]) hem a0 a1 b4
      rw [hq.1]
      congr 1
      simp [Conv.quant, hcl]

/-- **C93 violated** For RGB_TRUE colours the opacity, which the colour reports between 0 and 255, is taken for one between 0 and 1: whatever the opacity, if only at least 1/255, the complement is opaque. -/
theorem C93_eight_bit_violated (c d : Color) (z : Fl) (w : World) (hc : IsColor .rgbTrue c) (hd : Converts w c .hsl d) (hz : d.comps[2]? = some z) (hz0 : ¬ feq z 0) (a : ℝ)
    (a0 : 1 / 255 ≤ a) (ha : HasOpacity c a) : ∃ r, Complements w c r ∧ HasOpacity r 1 := by
  have hb : Base w .rgbTrue c := ⟨by simp, by simp, hc, by simp [Cie]⟩
  obtain ⟨r, h1, ⟨d', x', y', z', e, b1, b2, b3, b4⟩, hbr, -⟩ := hb.complement
  refine ⟨r, h1, (hasOpacity_iff hbr.col 1).mpr ?_⟩
  have hdd : d' = d := by
    have := (converts_iff hb.defined (by simp) hb.col).mp b1
    rw [(converts_iff hb.defined (by simp) hb.col).mp hd, ok_inj] at this
    exact this.symm
  subst hdd
  rw [b2] at hz
  have hz : z' = z := by simpa using hz
  subst hz
  have hal : c.alpha = fin (255 * a) := ha.1 (by rw [hc.ctype]; simp [EightBit])
  have hdv := (converts_iff hb.defined (by simp) hb.col).mp hd
  rw [Val.to, if_neg (by simp)] at hdv
  have hrng := ((Conv.good_direct .rgbTrue .hsl (by simp) (by simp) (by simp)).result _ _ _ hdv)
  have hzr : InRange 0 1 z' := by
    have := hrng.rng 2 (by rw [b2]; simp)
    simp only [hrng.col.ctype, b2] at this
    simpa [channelRange] using this
  have hzc : Color.clamp z' 1 0 = z' := by simpa using Color.clamp_of_inRange hzr
  rw [Color.construct_hsl, ok_inj] at b3
  have he : IsColor .hsl e := b3 ▸ Combine.mkHsl_color ..
  have b4 := (converts_iff (by simp) hb.defined he).mp b4
  rw [Val.to, if_neg (by simp)] at b4
  have b4 : Leaf.hsl_to_rgb_deep e >>= Leaf.rgb_deep_to_rgb_true = ok r := b4
  rw [← b3] at b4
  have g0 := (Combine.getHsl (c := Color.mkHue .hsl (x' + rnd 1 * (360 / rnd 2)) y' z' c.alpha c.space) rfl)
  simp only [Leaf.hsl_to_rgb_deep, g0.1, g0.2.1, g0.2.2, hzc, ok_bind, if_neg hz0, Color.construct_rgbDeep] at b4
  simp only [Leaf.rgb_deep_to_rgb_true, (Combine.getHsl (c := Color.mkRgbDeep _ _ _ _ _) rfl).1, (Combine.getHsl (c := Color.mkRgbDeep _ _ _ _ _) rfl).2.1,
    (Combine.getHsl (c := Color.mkRgbDeep _ _ _ _ _) rfl).2.2, ok_bind, Color.construct_rgbTrue, ok_inj] at b4
  rw [← b4]
  have h255 : (255 : ℝ) ≤ roundR (255 * a * 255) := by
    have h1 : (255 : ℝ) ≤ 255 * a * 255 := by nlinarith
    rw [roundR, if_pos (by linarith)]
    have : (255 : ℤ) ≤ ⌊255 * a * 255 + 1 / 2⌋ := Int.le_floor.mpr (by push_cast; linarith)
    exact_mod_cast this
  show Color.clamp (Fl.round (c.alpha * 255) / 255) 1 0 = fin 1
  rw [hal]
  simp only [lit_def, mul_exact, Fl.round, one_def, zero_def]
  rw [div_exact _ _ (by norm_num), Color.clamp_fin, min_eq_right, max_eq_left zero_le_one]
  rw [le_div_iff₀ (by norm_num)]
  linarith

/-- **C93 violated** Black becomes transparent. -/
theorem C93_black_violated (w : World) (c : Color) (h : IsRgb c 0 0 0) (a : ℝ) (ha : HasOpacity c a) (hpos : 0 < a) : ∃ r, Complements w c r ∧ HasOpacity r 0 ∧ ¬ HasOpacity r a := by
  have hma := (hasOpacity_iff h.col a).mp ha
  obtain ⟨r, h1, -, h2, -⟩ := C77_black_violated w c h (by rw [hma, zero_def]; simpa using hpos.ne')
  have hb : Base w .rgbDeep c := ⟨by simp, by simp, h.col, by simp [Cie]⟩
  obtain ⟨r', h1', -, hb', -⟩ := hb.complement
  obtain rfl := h1.unique h1'
  refine ⟨r, h1, (hasOpacity_iff hb'.col 0).mpr (by rw [h2, zero_def]), fun hh => ?_⟩
  have := (hasOpacity_iff hb'.col a).mp hh
  rw [h2, zero_def, fin.injEq] at this
  exact hpos.ne this

/-- Cases: a half transparent orange keeps its opacity, a half transparent 8-bit red does not. -/
theorem hsl_of_red (w : World) (al : Fl) : Converts w (rgbOf 1 0 0 al none) .hsl (Hue.obj .hsl 0 1 0.5 al none) := by
  refine (converts_iff (by simp) (by simp) (isRgb_rgbOf (r := 1) (g := 0) (b := 0) al none (by norm_num)).col).mpr ?_
  have := Hue.to_hsl (mn := 0) (δ := 1) (u := 0) .A al none le_rfl zero_le_one one_pos (by norm_num [Hue.Sector.hue]) le_rfl (by norm_num)
  norm_num [Hue.Sector.hue, Hue.Sector.red, Hue.Sector.green, Hue.Sector.blue] at this
  rw [Val.to, if_neg (by simp)]
  have h2 : (1 : ℝ) / 2 = 0.5 := by norm_num
  rw [h2] at this
  exact this

example (w : World) : ∃ ks h', Combine.create_combination (some 0) 3 ⟨w, [rgbOf 1 0 0 (fin 0.25) none]⟩ = (ok ks, h') ∧ ∀ j : ℕ, (j : ℤ) < 3 → ∃ q r, ks[j]? = some (some q) ∧
    h'.colors[q]? = some r ∧ HasOpacity r 0.25 := by
  have hc := (isRgb_rgbOf (r := 1) (g := 0) (b := 0) (fin 0.25) none (by norm_num)).col
  exact C93_opacity_partial .rgbDeep (rgbOf 1 0 0 (fin 0.25) none) _ (fin 0.5) ⟨w, [rgbOf 1 0 0 (fin 0.25) none]⟩ 0 rfl ⟨by simp, by simp, hc, by simp [Cie]⟩ (by simp [EightBit])
    (hsl_of_red w _) rfl (Or.inr (by simp only [zero_def, feq_fin]; norm_num)) 0.25 (by norm_num) (by norm_num) ((hasOpacity_iff hc _).mpr rfl) 3 (by norm_num) (by norm_num)

example (w : World) : ∃ c r, Color.construct .rgbTrue [255, 0, 0] (fin 51) none = ok c ∧ HasOpacity c 0.2 ∧ Complements w c r ∧ HasOpacity r 1 := by
  have hc : Color.mkRgbTrue 255 0 0 (fin 51) none = ⟨.rgbTrue, .rgbTrue, [fin 255, fin 0, fin 0], fin 0.2, 255, 0, none⟩ := by
    simp only [Color.mkRgbTrue, lit_def, zero_def, one_def, Color.clamp_fin]
    rw [div_exact _ _ (by norm_num), Color.clamp_fin]
    norm_num
  have hcol : IsColor .rgbTrue (Color.mkRgbTrue 255 0 0 (fin 51) none) := ⟨rfl, rfl, rfl, rfl, rfl⟩
  have ho : HasOpacity (Color.mkRgbTrue 255 0 0 (fin 51) none) 0.2 := (hasOpacity_iff hcol _).mpr (by rw [hc])
  have hd : Converts w (Color.mkRgbTrue 255 0 0 (fin 51) none) .hsl (Hue.obj .hsl 0 1 0.5 (fin 0.2) none) := by
    refine (converts_iff (by simp) (by simp) hcol).mpr ?_
    rw [Val.to, if_neg (by simp)]
    show (Leaf.rgb_true_to_rgb_deep _ >>= Leaf.rgb_deep_to_hsl) = _
    have : Leaf.rgb_true_to_rgb_deep (Color.mkRgbTrue 255 0 0 (fin 51) none) = ok (rgbOf 1 0 0 (fin 0.2) none) := by
      rw [hc]
      have g := Combine.getHsl (c := ⟨.rgbTrue, .rgbTrue, [fin 255, fin 0, fin 0], fin 0.2, 255, 0, none⟩) rfl
      have ga : Color.alpha ⟨.rgbTrue, .rgbTrue, [fin 255, fin 0, fin 0], fin 0.2, 255, 0, none⟩ = fin 51 := by
        show fin 0.2 * 255 = fin 51
        simp only [lit_def, mul_exact]; norm_num
      simp only [Leaf.rgb_true_to_rgb_deep, g.1, g.2.1, g.2.2, ok_bind, ga, Color.construct_rgbDeep]
      simp only [lit_def]
      rw [div_exact _ _ (by norm_num), div_exact _ _ (by norm_num), div_exact _ _ (by norm_num)]
      simp only [Color.mkRgbDeep, zero_def, one_def, Color.clamp_fin, rgbOf]
      norm_num
    rw [this, ok_bind]
    have := (converts_iff (by simp) (by simp) (isRgb_rgbOf (r := 1) (g := 0) (b := 0) (fin 0.2) none (by norm_num)).col).mp (hsl_of_red w (fin 0.2))
    rwa [Val.to, if_neg (by simp)] at this
  obtain ⟨r, h1, h2⟩ := C93_eight_bit_violated _ _ (fin 0.5) w hcol hd rfl (by simp only [zero_def, feq_fin]; norm_num) 0.2 (by norm_num) ho
  exact ⟨_, r, Color.construct_rgbTrue .., ho, h1, h2⟩

/-- The LCH violations can be met: there is a memory with a usable colour space. -/
example [StdSort] : ∃ (w : World) (c : Color) (h' : Heap), Color.construct .lchAb [fin 50, fin 20, fin 30] 1 (some 0) = ok c ∧
    Combine.create_monochromatic (some 0) 0 (fin 0.5) 3 ⟨w, [c]⟩ = (.ub, h') := by
  obtain ⟨w, hw, -⟩ := exists_world .sRGB .g2_2
  obtain ⟨c, ec⟩ := Conv.construct_total .lchAb (vs := [fin 50, fin 20, fin 30]) 1 (some 0) rfl
  have hf := Conv.construct_result (t := .lchAb) (by simp) rfl ec
  obtain ⟨h', e⟩ := C78_lch_violated .lchAb (Or.inl rfl) c ⟨w, [c]⟩ 0 rfl hf.col (by rw [hf.space]; exact hw) (fin 0.5)
    (by simp only [zero_def, one_def, fin_lt]; norm_num) 3 le_rfl
  exact ⟨w, c, h', ec, e⟩

end
