import Verif.Tame

/-! Generated by a script: the rules of `Verif/Tame.lean` applied to every function of `Verif/Converter.lean`. -/

open Outcome Fl Prog FrameSpec

set_option linter.unusedVariables false

namespace Tame
variable [FloatModel] {Q : ColorType → Color → Prop} {F : Nat → Prop}

theorem s_cast (hQ : Closed Q) (t : ColorType) {p : Ptr} (hp : Within F p) : Spec Q F (Converter.cast t p) (IsA Q F t) := by
  intro h hg hfr
  rcases load_cases p h with ⟨i, c, rfl, hc, e⟩ | e
  · obtain ⟨t', ht, hq⟩ := hg i c hc
    by_cases hk : c.cls = t
    · have : Converter.cast t (some i) h = (ok (some i), h) := by simp [Converter.cast, bind_def, e, hk]
      rw [this]
      refine ⟨after_refl h, hg, fun a ha j hj => ?_⟩
      have : a = some i := by simpa [eq_comm] using ha
      subst this
      obtain rfl := Option.some.inj hj
      have : t' = t := by rw [← (hQ.col _ _ hq).cls, hk]
      exact ⟨hp _ rfl, c, hc, this ▸ hq⟩
    · have : Converter.cast t (some i) h = (.ub, h) := by simp [Converter.cast, bind_def, e, hk, lift]
      rw [this]; exact ⟨after_refl h, hg, by simp⟩
  · have : Converter.cast t p h = (.ub, h) := by simp [Converter.cast, bind_def, e]
    rw [this]; exact ⟨after_refl h, hg, by simp⟩

theorem s_none (t : ColorType) : Spec Q F (pure none : Prog Ptr) (IsA Q F t) := spec_pure none fun _ i hi => by simp at hi

theorem s_rgb_true_to_rgb_deep (hQ : Closed Q) {p : Ptr} (hp : Within F p) : Spec Q F (Converter.rgb_true_to_rgb_deep p) (IsA Q F .rgbDeep) := by
  refine spec_map (by decide) (fun w c => ?_) p
  simp only [Leaf.rgb_true_to_rgb_deep]
  makes_steps hQ

theorem s_rgb_true_to_grey_true (hQ : Closed Q) {p : Ptr} (hp : Within F p) : Spec Q F (Converter.rgb_true_to_grey_true p) (IsA Q F .greyTrue) := by
  refine spec_map (by decide) (fun w c => ?_) p
  simp only [Leaf.rgb_true_to_grey_true]
  makes_steps hQ

theorem s_rgb_true_to_grey_deep (hQ : Closed Q) {p : Ptr} (hp : Within F p) : Spec Q F (Converter.rgb_true_to_grey_deep p) (IsA Q F .greyDeep) := by
  refine Spec.bindp (s_rgb_true_to_grey_true hQ hp) fun q hp => spec_load_bind fun c _ _ _ => spec_load_bind fun g _ _ _ => spec_lift_bind fun r hr => spec_alloc (by decide) ?_
  have : Makes Q .greyDeep (Leaf.grey_copy_to_deep c.space g) := by
    simp only [Leaf.grey_copy_to_deep]
    makes_steps hQ
  exact this r hr

theorem s_rgb_deep_to_rgb_true (hQ : Closed Q) {p : Ptr} (hp : Within F p) : Spec Q F (Converter.rgb_deep_to_rgb_true p) (IsA Q F .rgbTrue) := by
  refine spec_map (by decide) (fun w c => ?_) p
  simp only [Leaf.rgb_deep_to_rgb_true]
  makes_steps hQ

theorem s_rgb_deep_to_grey_deep (hQ : Closed Q) {p : Ptr} (hp : Within F p) : Spec Q F (Converter.rgb_deep_to_grey_deep p) (IsA Q F .greyDeep) := by
  refine spec_map (by decide) (fun w c => ?_) p
  simp only [Leaf.rgb_deep_to_grey_deep]
  makes_steps hQ

theorem s_rgb_deep_to_cmyk (hQ : Closed Q) {p : Ptr} (hp : Within F p) : Spec Q F (Converter.rgb_deep_to_cmyk p) (IsA Q F .cmyk) := by
  refine spec_map (by decide) (fun w c => ?_) p
  simp only [Leaf.rgb_deep_to_cmyk]
  makes_steps hQ

theorem s_rgb_deep_to_hsi (hQ : Closed Q) {p : Ptr} (hp : Within F p) : Spec Q F (Converter.rgb_deep_to_hsi p) (IsA Q F .hsi) := by
  refine spec_map (by decide) (fun w c => ?_) p
  simp only [Leaf.rgb_deep_to_hsi]
  makes_steps hQ

theorem s_rgb_deep_to_hsv (hQ : Closed Q) {p : Ptr} (hp : Within F p) : Spec Q F (Converter.rgb_deep_to_hsv p) (IsA Q F .hsv) := by
  refine spec_map (by decide) (fun w c => ?_) p
  simp only [Leaf.rgb_deep_to_hsv]
  makes_steps hQ

theorem s_rgb_deep_to_hsl (hQ : Closed Q) {p : Ptr} (hp : Within F p) : Spec Q F (Converter.rgb_deep_to_hsl p) (IsA Q F .hsl) := by
  refine spec_map (by decide) (fun w c => ?_) p
  simp only [Leaf.rgb_deep_to_hsl]
  makes_steps hQ

theorem s_rgb_deep_to_hcy (hQ : Closed Q) {p : Ptr} (hp : Within F p) : Spec Q F (Converter.rgb_deep_to_hcy p) (IsA Q F .hcy) := by
  refine spec_map (by decide) (fun w c => ?_) p
  simp only [Leaf.rgb_deep_to_hcy]
  makes_steps hQ

theorem s_rgb_deep_to_xyz (hQ : Closed Q) {p : Ptr} (hp : Within F p) : Spec Q F (Converter.rgb_deep_to_xyz p) (IsA Q F .xyz) := by
  have e : Converter.rgb_deep_to_xyz p = (update p Leaf.inverseGamma >>= fun d => world >>= fun w => lift (Leaf.linear_to_xyz w d) >>= fun r => alloc r) := by
    funext h
    rcases load_cases p h with ⟨i, c, rfl, hc, e⟩ | e
    · have hi := (List.getElem?_eq_some_iff.mp hc).1
      cases o : Leaf.inverseGamma h.world c <;> simp [Converter.rgb_deep_to_xyz, update, bind_def, e, world, lift, o, store, hi]
    · simp [Converter.rgb_deep_to_xyz, update, bind_def, e]
  rw [e]
  refine Spec.bind (spec_update hp fun t w c d _ hq hd => ?_) fun d => spec_world_bind fun w => spec_lift_bind fun r hr => spec_alloc (by decide) ?_
  · simp only [Leaf.inverseGamma] at hd
    obtain ⟨s, -, hd⟩ := bind_eq_ok.mp hd
    obtain ⟨g, -, hd⟩ := bind_eq_ok.mp hd
    obtain rfl := ok_inj.mp hd
    exact ⟨hQ.gamma t c _ hq, rfl⟩
  · have : Makes Q .xyz (Leaf.linear_to_xyz w d) := by
      simp only [Leaf.linear_to_xyz]
      makes_steps hQ
    exact this r hr

theorem s_grey_true_to_rgb_true (hQ : Closed Q) {p : Ptr} (hp : Within F p) : Spec Q F (Converter.grey_true_to_rgb_true p) (IsA Q F .rgbTrue) := by
  refine spec_map (by decide) (fun w c => ?_) p
  simp only [Leaf.grey_true_to_rgb_true]
  makes_steps hQ

theorem s_grey_true_to_rgb_deep (hQ : Closed Q) {p : Ptr} (hp : Within F p) : Spec Q F (Converter.grey_true_to_rgb_deep p) (IsA Q F .rgbDeep) := by
  refine spec_map (by decide) (fun w c => ?_) p
  simp only [Leaf.grey_true_to_rgb_deep]
  makes_steps hQ

theorem s_grey_true_to_grey_deep (hQ : Closed Q) {p : Ptr} (hp : Within F p) : Spec Q F (Converter.grey_true_to_grey_deep p) (IsA Q F .greyDeep) := by
  refine spec_map (by decide) (fun w c => ?_) p
  simp only [Leaf.grey_true_to_grey_deep]
  makes_steps hQ

theorem s_grey_deep_to_rgb_true (hQ : Closed Q) {p : Ptr} (hp : Within F p) : Spec Q F (Converter.grey_deep_to_rgb_true p) (IsA Q F .rgbTrue) := by
  refine spec_map (by decide) (fun w c => ?_) p
  simp only [Leaf.grey_deep_to_rgb_true]
  makes_steps hQ

theorem s_grey_deep_to_rgb_deep (hQ : Closed Q) {p : Ptr} (hp : Within F p) : Spec Q F (Converter.grey_deep_to_rgb_deep p) (IsA Q F .rgbDeep) := by
  refine spec_map (by decide) (fun w c => ?_) p
  simp only [Leaf.grey_deep_to_rgb_deep]
  makes_steps hQ

theorem s_grey_deep_to_grey_true (hQ : Closed Q) {p : Ptr} (hp : Within F p) : Spec Q F (Converter.grey_deep_to_grey_true p) (IsA Q F .greyTrue) := by
  refine spec_map (by decide) (fun w c => ?_) p
  simp only [Leaf.grey_deep_to_grey_true]
  makes_steps hQ

theorem s_cmyk_to_rgb_deep (hQ : Closed Q) {p : Ptr} (hp : Within F p) : Spec Q F (Converter.cmyk_to_rgb_deep p) (IsA Q F .rgbDeep) := by
  refine spec_map (by decide) (fun w c => ?_) p
  simp only [Leaf.cmyk_to_rgb_deep]
  makes_steps hQ

theorem s_hsi_to_rgb_deep (hQ : Closed Q) {p : Ptr} (hp : Within F p) : Spec Q F (Converter.hsi_to_rgb_deep p) (IsA Q F .rgbDeep) := by
  refine spec_map (by decide) (fun w c => ?_) p
  have hl : ∀ h c x : Fl, (Leaf.sector h c x).length = 3 := fun h c x => by unfold Leaf.sector; split_ifs <;> rfl
  simp only [Leaf.hsi_to_rgb_deep]
  refine Makes.bind fun _ => Makes.bind fun _ => Makes.bind fun _ => ?_
  split
  · exact makes_grey hQ (by decide) rfl
  · exact makes_construct hQ (by decide) (hl _ _ _)


theorem s_hsv_to_rgb_deep (hQ : Closed Q) {p : Ptr} (hp : Within F p) : Spec Q F (Converter.hsv_to_rgb_deep p) (IsA Q F .rgbDeep) := by
  refine spec_map (by decide) (fun w c => ?_) p
  simp only [Leaf.hsv_to_rgb_deep]
  makes_steps hQ

theorem s_hsv_to_hsl (hQ : Closed Q) {p : Ptr} (hp : Within F p) : Spec Q F (Converter.hsv_to_hsl p) (IsA Q F .hsl) := by
  refine spec_map (by decide) (fun w c => ?_) p
  simp only [Leaf.hsv_to_hsl]
  makes_steps hQ

theorem s_hsl_to_rgb_deep (hQ : Closed Q) {p : Ptr} (hp : Within F p) : Spec Q F (Converter.hsl_to_rgb_deep p) (IsA Q F .rgbDeep) := by
  refine spec_map (by decide) (fun w c => ?_) p
  simp only [Leaf.hsl_to_rgb_deep]
  makes_steps hQ

theorem s_hsl_to_hsv (hQ : Closed Q) {p : Ptr} (hp : Within F p) : Spec Q F (Converter.hsl_to_hsv p) (IsA Q F .hsv) := by
  refine spec_map (by decide) (fun w c => ?_) p
  simp only [Leaf.hsl_to_hsv]
  makes_steps hQ

theorem s_hcy_to_rgb_deep (hQ : Closed Q) {p : Ptr} (hp : Within F p) : Spec Q F (Converter.hcy_to_rgb_deep p) (IsA Q F .rgbDeep) := by
  refine spec_map (by decide) (fun w c => ?_) p
  simp only [Leaf.hcy_to_rgb_deep]
  makes_steps hQ

theorem s_xyz_to_rgb_deep (hQ : Closed Q) {p : Ptr} (hp : Within F p) : Spec Q F (Converter.xyz_to_rgb_deep p) (IsA Q F .rgbDeep) := by
  refine spec_map (by decide) (fun w c => ?_) p
  simp only [Leaf.xyz_to_rgb_deep, Leaf.forwardGamma]
  refine FrameSpec.Makes.bind fun _ => Makes.bind fun _ => Makes.bind fun _ => Makes.bind fun _ => Makes.bind fun _ => Makes.bind_color (makes_construct hQ (by decide) rfl) fun _ h0 => ?_
  refine FrameSpec.Makes.bind fun _ => Makes.bind_color (makes_chan hQ h0 _ _) fun _ h1 => Makes.bind fun _ => Makes.bind_color (makes_chan hQ h1 _ _) fun _ h2 => ?_
  refine FrameSpec.Makes.bind fun _ => Makes.bind_color (makes_chan hQ h2 _ _) fun _ h3 => Makes.bind fun _ => Makes.bind fun _ => makes_gamma hQ h3 _

theorem s_xyz_to_xyy (hQ : Closed Q) {p : Ptr} (hp : Within F p) : Spec Q F (Converter.xyz_to_xyy p) (IsA Q F .xyy) := by
  refine spec_map (by decide) (fun w c => ?_) p
  simp only [Leaf.xyz_to_xyy]
  makes_steps hQ

theorem s_xyz_to_cieluv (hQ : Closed Q) {p : Ptr} (hp : Within F p) : Spec Q F (Converter.xyz_to_cieluv p) (IsA Q F .cieluv) := by
  refine spec_map (by decide) (fun w c => ?_) p
  simp only [Leaf.xyz_to_cieluv]
  makes_steps hQ

theorem s_xyz_to_lab (hQ : Closed Q) {p : Ptr} (hp : Within F p) : Spec Q F (Converter.xyz_to_lab p) (IsA Q F .lab) := by
  refine spec_map (by decide) (fun w c => ?_) p
  simp only [Leaf.xyz_to_lab]
  makes_steps hQ

theorem s_xyy_to_xyz (hQ : Closed Q) {p : Ptr} (hp : Within F p) : Spec Q F (Converter.xyy_to_xyz p) (IsA Q F .xyz) := by
  refine spec_map (by decide) (fun w c => ?_) p
  simp only [Leaf.xyy_to_xyz]
  makes_steps hQ

theorem s_cieluv_to_xyz (hQ : Closed Q) {p : Ptr} (hp : Within F p) : Spec Q F (Converter.cieluv_to_xyz p) (IsA Q F .xyz) := by
  refine spec_map (by decide) (fun w c => ?_) p
  simp only [Leaf.cieluv_to_xyz]
  makes_steps hQ

theorem s_cieluv_to_lch_uv (hQ : Closed Q) {p : Ptr} (hp : Within F p) : Spec Q F (Converter.cieluv_to_lch_uv p) (IsA Q F .lchUv) := by
  refine spec_map (by decide) (fun w c => ?_) p
  simp only [Leaf.cieluv_to_lch_uv, Leaf.to_lch]
  makes_steps hQ

theorem s_lab_to_xyz (hQ : Closed Q) {p : Ptr} (hp : Within F p) : Spec Q F (Converter.lab_to_xyz p) (IsA Q F .xyz) := by
  refine spec_map (by decide) (fun w c => ?_) p
  simp only [Leaf.lab_to_xyz]
  makes_steps hQ

theorem s_lab_to_lch_ab (hQ : Closed Q) {p : Ptr} (hp : Within F p) : Spec Q F (Converter.lab_to_lch_ab p) (IsA Q F .lchAb) := by
  refine spec_map (by decide) (fun w c => ?_) p
  simp only [Leaf.lab_to_lch_ab, Leaf.to_lch]
  makes_steps hQ

theorem s_lch_ab_to_lab (hQ : Closed Q) {p : Ptr} (hp : Within F p) : Spec Q F (Converter.lch_ab_to_lab p) (IsA Q F .lab) := by
  refine spec_map (by decide) (fun w c => ?_) p
  simp only [Leaf.lch_ab_to_lab, Leaf.from_lch]
  makes_steps hQ

theorem s_lch_uv_to_cieluv (hQ : Closed Q) {p : Ptr} (hp : Within F p) : Spec Q F (Converter.lch_uv_to_cieluv p) (IsA Q F .cieluv) := by
  refine spec_map (by decide) (fun w c => ?_) p
  simp only [Leaf.lch_uv_to_cieluv, Leaf.from_lch]
  makes_steps hQ

theorem s_rgb_true_to_cmyk (hQ : Closed Q) {p : Ptr} (hp : Within F p) : Spec Q F (Converter.rgb_true_to_cmyk p) (IsA Q F .cmyk) := 
  Spec.bindp (s_rgb_true_to_rgb_deep hQ hp) fun _ hp => s_rgb_deep_to_cmyk hQ hp

theorem s_rgb_true_to_hsi (hQ : Closed Q) {p : Ptr} (hp : Within F p) : Spec Q F (Converter.rgb_true_to_hsi p) (IsA Q F .hsi) := 
  Spec.bindp (s_rgb_true_to_rgb_deep hQ hp) fun _ hp => s_rgb_deep_to_hsi hQ hp

theorem s_rgb_true_to_hsv (hQ : Closed Q) {p : Ptr} (hp : Within F p) : Spec Q F (Converter.rgb_true_to_hsv p) (IsA Q F .hsv) := 
  Spec.bindp (s_rgb_true_to_rgb_deep hQ hp) fun _ hp => s_rgb_deep_to_hsv hQ hp

theorem s_rgb_true_to_hsl (hQ : Closed Q) {p : Ptr} (hp : Within F p) : Spec Q F (Converter.rgb_true_to_hsl p) (IsA Q F .hsl) := 
  Spec.bindp (s_rgb_true_to_rgb_deep hQ hp) fun _ hp => s_rgb_deep_to_hsl hQ hp

theorem s_rgb_true_to_hcy (hQ : Closed Q) {p : Ptr} (hp : Within F p) : Spec Q F (Converter.rgb_true_to_hcy p) (IsA Q F .hcy) := 
  Spec.bindp (s_rgb_true_to_rgb_deep hQ hp) fun _ hp => s_rgb_deep_to_hcy hQ hp

theorem s_rgb_true_to_xyz (hQ : Closed Q) {p : Ptr} (hp : Within F p) : Spec Q F (Converter.rgb_true_to_xyz p) (IsA Q F .xyz) := 
  Spec.bindp (s_rgb_true_to_rgb_deep hQ hp) fun _ hp => s_rgb_deep_to_xyz hQ hp

theorem s_rgb_true_to_xyy (hQ : Closed Q) {p : Ptr} (hp : Within F p) : Spec Q F (Converter.rgb_true_to_xyy p) (IsA Q F .xyy) := 
  Spec.bindp (s_rgb_true_to_xyz hQ hp) fun _ hp => s_xyz_to_xyy hQ hp

theorem s_rgb_true_to_cieluv (hQ : Closed Q) {p : Ptr} (hp : Within F p) : Spec Q F (Converter.rgb_true_to_cieluv p) (IsA Q F .cieluv) := 
  Spec.bindp (s_rgb_true_to_xyz hQ hp) fun _ hp => s_xyz_to_cieluv hQ hp

theorem s_rgb_deep_to_lab (hQ : Closed Q) {p : Ptr} (hp : Within F p) : Spec Q F (Converter.rgb_deep_to_lab p) (IsA Q F .lab) := 
  Spec.bindp (s_rgb_deep_to_xyz hQ hp) fun _ hp => s_xyz_to_lab hQ hp

theorem s_rgb_true_to_lab (hQ : Closed Q) {p : Ptr} (hp : Within F p) : Spec Q F (Converter.rgb_true_to_lab p) (IsA Q F .lab) := 
  Spec.bindp (s_rgb_true_to_rgb_deep hQ hp) fun _ hp => s_rgb_deep_to_lab hQ hp

theorem s_rgb_true_to_lch_ab (hQ : Closed Q) {p : Ptr} (hp : Within F p) : Spec Q F (Converter.rgb_true_to_lch_ab p) (IsA Q F .lchAb) := 
  Spec.bindp (s_rgb_true_to_lab hQ hp) fun _ hp => s_lab_to_lch_ab hQ hp

theorem s_rgb_true_to_lch_uv (hQ : Closed Q) {p : Ptr} (hp : Within F p) : Spec Q F (Converter.rgb_true_to_lch_uv p) (IsA Q F .lchUv) := 
  Spec.bindp (s_rgb_true_to_cieluv hQ hp) fun _ hp => s_cieluv_to_lch_uv hQ hp

theorem s_rgb_deep_to_grey_true (hQ : Closed Q) {p : Ptr} (hp : Within F p) : Spec Q F (Converter.rgb_deep_to_grey_true p) (IsA Q F .greyTrue) := 
  Spec.bindp (s_rgb_deep_to_rgb_true hQ hp) fun _ hp => s_rgb_true_to_grey_true hQ hp

theorem s_rgb_deep_to_xyy (hQ : Closed Q) {p : Ptr} (hp : Within F p) : Spec Q F (Converter.rgb_deep_to_xyy p) (IsA Q F .xyy) := 
  Spec.bindp (s_rgb_deep_to_xyz hQ hp) fun _ hp => s_xyz_to_xyy hQ hp

theorem s_rgb_deep_to_cieluv (hQ : Closed Q) {p : Ptr} (hp : Within F p) : Spec Q F (Converter.rgb_deep_to_cieluv p) (IsA Q F .cieluv) := 
  Spec.bindp (s_rgb_deep_to_xyz hQ hp) fun _ hp => s_xyz_to_cieluv hQ hp

theorem s_rgb_deep_to_lch_ab (hQ : Closed Q) {p : Ptr} (hp : Within F p) : Spec Q F (Converter.rgb_deep_to_lch_ab p) (IsA Q F .lchAb) := 
  Spec.bindp (s_rgb_deep_to_lab hQ hp) fun _ hp => s_lab_to_lch_ab hQ hp

theorem s_rgb_deep_to_lch_uv (hQ : Closed Q) {p : Ptr} (hp : Within F p) : Spec Q F (Converter.rgb_deep_to_lch_uv p) (IsA Q F .lchUv) := 
  Spec.bindp (s_rgb_deep_to_cieluv hQ hp) fun _ hp => s_cieluv_to_lch_uv hQ hp

theorem s_grey_true_to_cmyk (hQ : Closed Q) {p : Ptr} (hp : Within F p) : Spec Q F (Converter.grey_true_to_cmyk p) (IsA Q F .cmyk) := 
  Spec.bindp (s_grey_true_to_rgb_deep hQ hp) fun _ hp => s_rgb_deep_to_cmyk hQ hp

theorem s_grey_true_to_hsi (hQ : Closed Q) {p : Ptr} (hp : Within F p) : Spec Q F (Converter.grey_true_to_hsi p) (IsA Q F .hsi) := 
  Spec.bindp (s_grey_true_to_rgb_deep hQ hp) fun _ hp => s_rgb_deep_to_hsi hQ hp

theorem s_grey_true_to_hsv (hQ : Closed Q) {p : Ptr} (hp : Within F p) : Spec Q F (Converter.grey_true_to_hsv p) (IsA Q F .hsv) := 
  Spec.bindp (s_grey_true_to_rgb_deep hQ hp) fun _ hp => s_rgb_deep_to_hsv hQ hp

theorem s_grey_true_to_hsl (hQ : Closed Q) {p : Ptr} (hp : Within F p) : Spec Q F (Converter.grey_true_to_hsl p) (IsA Q F .hsl) := 
  Spec.bindp (s_grey_true_to_rgb_deep hQ hp) fun _ hp => s_rgb_deep_to_hsl hQ hp

theorem s_grey_true_to_hcy (hQ : Closed Q) {p : Ptr} (hp : Within F p) : Spec Q F (Converter.grey_true_to_hcy p) (IsA Q F .hcy) := 
  Spec.bindp (s_grey_true_to_rgb_deep hQ hp) fun _ hp => s_rgb_deep_to_hcy hQ hp

theorem s_grey_true_to_xyz (hQ : Closed Q) {p : Ptr} (hp : Within F p) : Spec Q F (Converter.grey_true_to_xyz p) (IsA Q F .xyz) := 
  Spec.bindp (s_grey_true_to_rgb_deep hQ hp) fun _ hp => s_rgb_deep_to_xyz hQ hp

theorem s_grey_true_to_xyy (hQ : Closed Q) {p : Ptr} (hp : Within F p) : Spec Q F (Converter.grey_true_to_xyy p) (IsA Q F .xyy) := 
  Spec.bindp (s_grey_true_to_xyz hQ hp) fun _ hp => s_xyz_to_xyy hQ hp

theorem s_grey_true_to_cieluv (hQ : Closed Q) {p : Ptr} (hp : Within F p) : Spec Q F (Converter.grey_true_to_cieluv p) (IsA Q F .cieluv) := 
  Spec.bindp (s_grey_true_to_xyz hQ hp) fun _ hp => s_xyz_to_cieluv hQ hp

theorem s_grey_true_to_lab (hQ : Closed Q) {p : Ptr} (hp : Within F p) : Spec Q F (Converter.grey_true_to_lab p) (IsA Q F .lab) := 
  Spec.bindp (s_grey_true_to_rgb_deep hQ hp) fun _ hp => s_rgb_deep_to_lab hQ hp

theorem s_grey_true_to_lch_ab (hQ : Closed Q) {p : Ptr} (hp : Within F p) : Spec Q F (Converter.grey_true_to_lch_ab p) (IsA Q F .lchAb) := 
  Spec.bindp (s_grey_true_to_lab hQ hp) fun _ hp => s_lab_to_lch_ab hQ hp

theorem s_grey_true_to_lch_uv (hQ : Closed Q) {p : Ptr} (hp : Within F p) : Spec Q F (Converter.grey_true_to_lch_uv p) (IsA Q F .lchUv) := 
  Spec.bindp (s_grey_true_to_cieluv hQ hp) fun _ hp => s_cieluv_to_lch_uv hQ hp

theorem s_grey_deep_to_cmyk (hQ : Closed Q) {p : Ptr} (hp : Within F p) : Spec Q F (Converter.grey_deep_to_cmyk p) (IsA Q F .cmyk) := 
  Spec.bindp (s_grey_deep_to_rgb_deep hQ hp) fun _ hp => s_rgb_deep_to_cmyk hQ hp

theorem s_grey_deep_to_hsi (hQ : Closed Q) {p : Ptr} (hp : Within F p) : Spec Q F (Converter.grey_deep_to_hsi p) (IsA Q F .hsi) := 
  Spec.bindp (s_grey_deep_to_rgb_deep hQ hp) fun _ hp => s_rgb_deep_to_hsi hQ hp

theorem s_grey_deep_to_hsv (hQ : Closed Q) {p : Ptr} (hp : Within F p) : Spec Q F (Converter.grey_deep_to_hsv p) (IsA Q F .hsv) := 
  Spec.bindp (s_grey_deep_to_rgb_deep hQ hp) fun _ hp => s_rgb_deep_to_hsv hQ hp

theorem s_grey_deep_to_hsl (hQ : Closed Q) {p : Ptr} (hp : Within F p) : Spec Q F (Converter.grey_deep_to_hsl p) (IsA Q F .hsl) := 
  Spec.bindp (s_grey_deep_to_rgb_deep hQ hp) fun _ hp => s_rgb_deep_to_hsl hQ hp

theorem s_grey_deep_to_hcy (hQ : Closed Q) {p : Ptr} (hp : Within F p) : Spec Q F (Converter.grey_deep_to_hcy p) (IsA Q F .hcy) := 
  Spec.bindp (s_grey_deep_to_rgb_deep hQ hp) fun _ hp => s_rgb_deep_to_hcy hQ hp

theorem s_grey_deep_to_xyz (hQ : Closed Q) {p : Ptr} (hp : Within F p) : Spec Q F (Converter.grey_deep_to_xyz p) (IsA Q F .xyz) := 
  Spec.bindp (s_grey_deep_to_rgb_deep hQ hp) fun _ hp => s_rgb_deep_to_xyz hQ hp

theorem s_grey_deep_to_xyy (hQ : Closed Q) {p : Ptr} (hp : Within F p) : Spec Q F (Converter.grey_deep_to_xyy p) (IsA Q F .xyy) := 
  Spec.bindp (s_grey_deep_to_xyz hQ hp) fun _ hp => s_xyz_to_xyy hQ hp

theorem s_grey_deep_to_cieluv (hQ : Closed Q) {p : Ptr} (hp : Within F p) : Spec Q F (Converter.grey_deep_to_cieluv p) (IsA Q F .cieluv) := 
  Spec.bindp (s_grey_deep_to_xyz hQ hp) fun _ hp => s_xyz_to_cieluv hQ hp

theorem s_grey_deep_to_lab (hQ : Closed Q) {p : Ptr} (hp : Within F p) : Spec Q F (Converter.grey_deep_to_lab p) (IsA Q F .lab) := 
  Spec.bindp (s_grey_deep_to_rgb_deep hQ hp) fun _ hp => s_rgb_deep_to_lab hQ hp

theorem s_grey_deep_to_lch_ab (hQ : Closed Q) {p : Ptr} (hp : Within F p) : Spec Q F (Converter.grey_deep_to_lch_ab p) (IsA Q F .lchAb) := 
  Spec.bindp (s_grey_deep_to_lab hQ hp) fun _ hp => s_lab_to_lch_ab hQ hp

theorem s_grey_deep_to_lch_uv (hQ : Closed Q) {p : Ptr} (hp : Within F p) : Spec Q F (Converter.grey_deep_to_lch_uv p) (IsA Q F .lchUv) := 
  Spec.bindp (s_grey_deep_to_cieluv hQ hp) fun _ hp => s_cieluv_to_lch_uv hQ hp

theorem s_cmyk_to_rgb_true (hQ : Closed Q) {p : Ptr} (hp : Within F p) : Spec Q F (Converter.cmyk_to_rgb_true p) (IsA Q F .rgbTrue) := 
  Spec.bindp (s_cmyk_to_rgb_deep hQ hp) fun _ hp => s_rgb_deep_to_rgb_true hQ hp

theorem s_cmyk_to_grey_true (hQ : Closed Q) {p : Ptr} (hp : Within F p) : Spec Q F (Converter.cmyk_to_grey_true p) (IsA Q F .greyTrue) := 
  Spec.bindp (s_cmyk_to_rgb_deep hQ hp) fun _ hp => s_rgb_deep_to_grey_true hQ hp

theorem s_cmyk_to_grey_deep (hQ : Closed Q) {p : Ptr} (hp : Within F p) : Spec Q F (Converter.cmyk_to_grey_deep p) (IsA Q F .greyDeep) := 
  Spec.bindp (s_cmyk_to_rgb_deep hQ hp) fun _ hp => s_rgb_deep_to_grey_deep hQ hp

theorem s_cmyk_to_hsi (hQ : Closed Q) {p : Ptr} (hp : Within F p) : Spec Q F (Converter.cmyk_to_hsi p) (IsA Q F .hsi) := 
  Spec.bindp (s_cmyk_to_rgb_deep hQ hp) fun _ hp => s_rgb_deep_to_hsi hQ hp

theorem s_cmyk_to_hsv (hQ : Closed Q) {p : Ptr} (hp : Within F p) : Spec Q F (Converter.cmyk_to_hsv p) (IsA Q F .hsv) := 
  Spec.bindp (s_cmyk_to_rgb_deep hQ hp) fun _ hp => s_rgb_deep_to_hsv hQ hp

theorem s_cmyk_to_hsl (hQ : Closed Q) {p : Ptr} (hp : Within F p) : Spec Q F (Converter.cmyk_to_hsl p) (IsA Q F .hsl) := 
  Spec.bindp (s_cmyk_to_rgb_deep hQ hp) fun _ hp => s_rgb_deep_to_hsl hQ hp

theorem s_cmyk_to_hcy (hQ : Closed Q) {p : Ptr} (hp : Within F p) : Spec Q F (Converter.cmyk_to_hcy p) (IsA Q F .hcy) := 
  Spec.bindp (s_cmyk_to_rgb_deep hQ hp) fun _ hp => s_rgb_deep_to_hcy hQ hp

theorem s_cmyk_to_xyz (hQ : Closed Q) {p : Ptr} (hp : Within F p) : Spec Q F (Converter.cmyk_to_xyz p) (IsA Q F .xyz) := 
  Spec.bindp (s_cmyk_to_rgb_deep hQ hp) fun _ hp => s_rgb_deep_to_xyz hQ hp

theorem s_cmyk_to_xyy (hQ : Closed Q) {p : Ptr} (hp : Within F p) : Spec Q F (Converter.cmyk_to_xyy p) (IsA Q F .xyy) := 
  Spec.bindp (s_cmyk_to_xyz hQ hp) fun _ hp => s_xyz_to_xyy hQ hp

theorem s_cmyk_to_cieluv (hQ : Closed Q) {p : Ptr} (hp : Within F p) : Spec Q F (Converter.cmyk_to_cieluv p) (IsA Q F .cieluv) := 
  Spec.bindp (s_cmyk_to_xyz hQ hp) fun _ hp => s_xyz_to_cieluv hQ hp

theorem s_cmyk_to_lab (hQ : Closed Q) {p : Ptr} (hp : Within F p) : Spec Q F (Converter.cmyk_to_lab p) (IsA Q F .lab) := 
  Spec.bindp (s_cmyk_to_rgb_deep hQ hp) fun _ hp => s_rgb_deep_to_lab hQ hp

theorem s_cmyk_to_lch_ab (hQ : Closed Q) {p : Ptr} (hp : Within F p) : Spec Q F (Converter.cmyk_to_lch_ab p) (IsA Q F .lchAb) := 
  Spec.bindp (s_cmyk_to_lab hQ hp) fun _ hp => s_lab_to_lch_ab hQ hp

theorem s_cmyk_to_lch_uv (hQ : Closed Q) {p : Ptr} (hp : Within F p) : Spec Q F (Converter.cmyk_to_lch_uv p) (IsA Q F .lchUv) := 
  Spec.bindp (s_cmyk_to_cieluv hQ hp) fun _ hp => s_cieluv_to_lch_uv hQ hp

theorem s_hsi_to_rgb_true (hQ : Closed Q) {p : Ptr} (hp : Within F p) : Spec Q F (Converter.hsi_to_rgb_true p) (IsA Q F .rgbTrue) := 
  Spec.bindp (s_hsi_to_rgb_deep hQ hp) fun _ hp => s_rgb_deep_to_rgb_true hQ hp

theorem s_hsi_to_grey_true (hQ : Closed Q) {p : Ptr} (hp : Within F p) : Spec Q F (Converter.hsi_to_grey_true p) (IsA Q F .greyTrue) := 
  Spec.bindp (s_hsi_to_rgb_deep hQ hp) fun _ hp => s_rgb_deep_to_grey_true hQ hp

theorem s_hsi_to_grey_deep (hQ : Closed Q) {p : Ptr} (hp : Within F p) : Spec Q F (Converter.hsi_to_grey_deep p) (IsA Q F .greyDeep) := 
  Spec.bindp (s_hsi_to_rgb_deep hQ hp) fun _ hp => s_rgb_deep_to_grey_deep hQ hp

theorem s_hsi_to_cmyk (hQ : Closed Q) {p : Ptr} (hp : Within F p) : Spec Q F (Converter.hsi_to_cmyk p) (IsA Q F .cmyk) := 
  Spec.bindp (s_hsi_to_rgb_deep hQ hp) fun _ hp => s_rgb_deep_to_cmyk hQ hp

theorem s_hsi_to_hsv (hQ : Closed Q) {p : Ptr} (hp : Within F p) : Spec Q F (Converter.hsi_to_hsv p) (IsA Q F .hsv) := 
  Spec.bindp (s_hsi_to_rgb_deep hQ hp) fun _ hp => s_rgb_deep_to_hsv hQ hp

theorem s_hsi_to_hsl (hQ : Closed Q) {p : Ptr} (hp : Within F p) : Spec Q F (Converter.hsi_to_hsl p) (IsA Q F .hsl) := 
  Spec.bindp (s_hsi_to_rgb_deep hQ hp) fun _ hp => s_rgb_deep_to_hsl hQ hp

theorem s_hsi_to_hcy (hQ : Closed Q) {p : Ptr} (hp : Within F p) : Spec Q F (Converter.hsi_to_hcy p) (IsA Q F .hcy) := 
  Spec.bindp (s_hsi_to_rgb_deep hQ hp) fun _ hp => s_rgb_deep_to_hcy hQ hp

theorem s_hsi_to_xyz (hQ : Closed Q) {p : Ptr} (hp : Within F p) : Spec Q F (Converter.hsi_to_xyz p) (IsA Q F .xyz) := 
  Spec.bindp (s_hsi_to_rgb_deep hQ hp) fun _ hp => s_rgb_deep_to_xyz hQ hp

theorem s_hsi_to_xyy (hQ : Closed Q) {p : Ptr} (hp : Within F p) : Spec Q F (Converter.hsi_to_xyy p) (IsA Q F .xyy) := 
  Spec.bindp (s_hsi_to_rgb_deep hQ hp) fun _ hp => s_rgb_deep_to_xyy hQ hp

theorem s_hsi_to_cieluv (hQ : Closed Q) {p : Ptr} (hp : Within F p) : Spec Q F (Converter.hsi_to_cieluv p) (IsA Q F .cieluv) := 
  Spec.bindp (s_hsi_to_rgb_deep hQ hp) fun _ hp => s_rgb_deep_to_cieluv hQ hp

theorem s_hsi_to_lab (hQ : Closed Q) {p : Ptr} (hp : Within F p) : Spec Q F (Converter.hsi_to_lab p) (IsA Q F .lab) := 
  Spec.bindp (s_hsi_to_rgb_deep hQ hp) fun _ hp => s_rgb_deep_to_lab hQ hp

theorem s_hsi_to_lch_ab (hQ : Closed Q) {p : Ptr} (hp : Within F p) : Spec Q F (Converter.hsi_to_lch_ab p) (IsA Q F .lchAb) := 
  Spec.bindp (s_hsi_to_rgb_deep hQ hp) fun _ hp => s_rgb_deep_to_lch_ab hQ hp

theorem s_hsi_to_lch_uv (hQ : Closed Q) {p : Ptr} (hp : Within F p) : Spec Q F (Converter.hsi_to_lch_uv p) (IsA Q F .lchUv) := 
  Spec.bindp (s_hsi_to_rgb_deep hQ hp) fun _ hp => s_rgb_deep_to_lch_uv hQ hp

theorem s_hsv_to_rgb_true (hQ : Closed Q) {p : Ptr} (hp : Within F p) : Spec Q F (Converter.hsv_to_rgb_true p) (IsA Q F .rgbTrue) := 
  Spec.bindp (s_hsv_to_rgb_deep hQ hp) fun _ hp => s_rgb_deep_to_rgb_true hQ hp

theorem s_hsv_to_grey_true (hQ : Closed Q) {p : Ptr} (hp : Within F p) : Spec Q F (Converter.hsv_to_grey_true p) (IsA Q F .greyTrue) := 
  Spec.bindp (s_hsv_to_rgb_deep hQ hp) fun _ hp => s_rgb_deep_to_grey_true hQ hp

theorem s_hsv_to_grey_deep (hQ : Closed Q) {p : Ptr} (hp : Within F p) : Spec Q F (Converter.hsv_to_grey_deep p) (IsA Q F .greyDeep) := 
  Spec.bindp (s_hsv_to_rgb_deep hQ hp) fun _ hp => s_rgb_deep_to_grey_deep hQ hp

theorem s_hsv_to_cmyk (hQ : Closed Q) {p : Ptr} (hp : Within F p) : Spec Q F (Converter.hsv_to_cmyk p) (IsA Q F .cmyk) := 
  Spec.bindp (s_hsv_to_rgb_deep hQ hp) fun _ hp => s_rgb_deep_to_cmyk hQ hp

theorem s_hsv_to_hsi (hQ : Closed Q) {p : Ptr} (hp : Within F p) : Spec Q F (Converter.hsv_to_hsi p) (IsA Q F .hsi) := 
  Spec.bindp (s_hsv_to_rgb_deep hQ hp) fun _ hp => s_rgb_deep_to_hsi hQ hp

theorem s_hsv_to_hcy (hQ : Closed Q) {p : Ptr} (hp : Within F p) : Spec Q F (Converter.hsv_to_hcy p) (IsA Q F .hcy) := 
  Spec.bindp (s_hsv_to_rgb_deep hQ hp) fun _ hp => s_rgb_deep_to_hcy hQ hp

theorem s_hsv_to_xyz (hQ : Closed Q) {p : Ptr} (hp : Within F p) : Spec Q F (Converter.hsv_to_xyz p) (IsA Q F .xyz) := 
  Spec.bindp (s_hsv_to_rgb_deep hQ hp) fun _ hp => s_rgb_deep_to_xyz hQ hp

theorem s_hsv_to_xyy (hQ : Closed Q) {p : Ptr} (hp : Within F p) : Spec Q F (Converter.hsv_to_xyy p) (IsA Q F .xyy) := 
  Spec.bindp (s_hsv_to_xyz hQ hp) fun _ hp => s_xyz_to_xyy hQ hp

theorem s_hsv_to_cieluv (hQ : Closed Q) {p : Ptr} (hp : Within F p) : Spec Q F (Converter.hsv_to_cieluv p) (IsA Q F .cieluv) := 
  Spec.bindp (s_hsv_to_xyz hQ hp) fun _ hp => s_xyz_to_cieluv hQ hp

theorem s_hsv_to_lab (hQ : Closed Q) {p : Ptr} (hp : Within F p) : Spec Q F (Converter.hsv_to_lab p) (IsA Q F .lab) := 
  Spec.bindp (s_hsv_to_rgb_deep hQ hp) fun _ hp => s_rgb_deep_to_lab hQ hp

theorem s_hsv_to_lch_ab (hQ : Closed Q) {p : Ptr} (hp : Within F p) : Spec Q F (Converter.hsv_to_lch_ab p) (IsA Q F .lchAb) := 
  Spec.bindp (s_hsv_to_lab hQ hp) fun _ hp => s_lab_to_lch_ab hQ hp

theorem s_hsv_to_lch_uv (hQ : Closed Q) {p : Ptr} (hp : Within F p) : Spec Q F (Converter.hsv_to_lch_uv p) (IsA Q F .lchUv) := 
  Spec.bindp (s_hsv_to_cieluv hQ hp) fun _ hp => s_cieluv_to_lch_uv hQ hp

theorem s_hsl_to_rgb_true (hQ : Closed Q) {p : Ptr} (hp : Within F p) : Spec Q F (Converter.hsl_to_rgb_true p) (IsA Q F .rgbTrue) := 
  Spec.bindp (s_hsl_to_rgb_deep hQ hp) fun _ hp => s_rgb_deep_to_rgb_true hQ hp

theorem s_hsl_to_grey_true (hQ : Closed Q) {p : Ptr} (hp : Within F p) : Spec Q F (Converter.hsl_to_grey_true p) (IsA Q F .greyTrue) := 
  Spec.bindp (s_hsl_to_rgb_deep hQ hp) fun _ hp => s_rgb_deep_to_grey_true hQ hp

theorem s_hsl_to_grey_deep (hQ : Closed Q) {p : Ptr} (hp : Within F p) : Spec Q F (Converter.hsl_to_grey_deep p) (IsA Q F .greyDeep) := 
  Spec.bindp (s_hsl_to_rgb_deep hQ hp) fun _ hp => s_rgb_deep_to_grey_deep hQ hp

theorem s_hsl_to_cmyk (hQ : Closed Q) {p : Ptr} (hp : Within F p) : Spec Q F (Converter.hsl_to_cmyk p) (IsA Q F .cmyk) := 
  Spec.bindp (s_hsl_to_rgb_deep hQ hp) fun _ hp => s_rgb_deep_to_cmyk hQ hp

theorem s_hsl_to_hsi (hQ : Closed Q) {p : Ptr} (hp : Within F p) : Spec Q F (Converter.hsl_to_hsi p) (IsA Q F .hsi) := 
  Spec.bindp (s_hsl_to_rgb_deep hQ hp) fun _ hp => s_rgb_deep_to_hsi hQ hp

theorem s_hsl_to_hcy (hQ : Closed Q) {p : Ptr} (hp : Within F p) : Spec Q F (Converter.hsl_to_hcy p) (IsA Q F .hcy) := 
  Spec.bindp (s_hsl_to_rgb_deep hQ hp) fun _ hp => s_rgb_deep_to_hcy hQ hp

theorem s_hsl_to_xyz (hQ : Closed Q) {p : Ptr} (hp : Within F p) : Spec Q F (Converter.hsl_to_xyz p) (IsA Q F .xyz) := 
  Spec.bindp (s_hsl_to_rgb_deep hQ hp) fun _ hp => s_rgb_deep_to_xyz hQ hp

theorem s_hsl_to_xyy (hQ : Closed Q) {p : Ptr} (hp : Within F p) : Spec Q F (Converter.hsl_to_xyy p) (IsA Q F .xyy) := 
  Spec.bindp (s_hsl_to_xyz hQ hp) fun _ hp => s_xyz_to_xyy hQ hp

theorem s_hsl_to_cieluv (hQ : Closed Q) {p : Ptr} (hp : Within F p) : Spec Q F (Converter.hsl_to_cieluv p) (IsA Q F .cieluv) := 
  Spec.bindp (s_hsl_to_xyz hQ hp) fun _ hp => s_xyz_to_cieluv hQ hp

theorem s_hsl_to_lab (hQ : Closed Q) {p : Ptr} (hp : Within F p) : Spec Q F (Converter.hsl_to_lab p) (IsA Q F .lab) := 
  Spec.bindp (s_hsl_to_rgb_deep hQ hp) fun _ hp => s_rgb_deep_to_lab hQ hp

theorem s_hsl_to_lch_ab (hQ : Closed Q) {p : Ptr} (hp : Within F p) : Spec Q F (Converter.hsl_to_lch_ab p) (IsA Q F .lchAb) := 
  Spec.bindp (s_hsl_to_lab hQ hp) fun _ hp => s_lab_to_lch_ab hQ hp

theorem s_hsl_to_lch_uv (hQ : Closed Q) {p : Ptr} (hp : Within F p) : Spec Q F (Converter.hsl_to_lch_uv p) (IsA Q F .lchUv) := 
  Spec.bindp (s_hsl_to_cieluv hQ hp) fun _ hp => s_cieluv_to_lch_uv hQ hp

theorem s_hcy_to_rgb_true (hQ : Closed Q) {p : Ptr} (hp : Within F p) : Spec Q F (Converter.hcy_to_rgb_true p) (IsA Q F .rgbTrue) := 
  Spec.bindp (s_hcy_to_rgb_deep hQ hp) fun _ hp => s_rgb_deep_to_rgb_true hQ hp

theorem s_hcy_to_grey_true (hQ : Closed Q) {p : Ptr} (hp : Within F p) : Spec Q F (Converter.hcy_to_grey_true p) (IsA Q F .greyTrue) := 
  Spec.bindp (s_hcy_to_rgb_deep hQ hp) fun _ hp => s_rgb_deep_to_grey_true hQ hp

theorem s_hcy_to_grey_deep (hQ : Closed Q) {p : Ptr} (hp : Within F p) : Spec Q F (Converter.hcy_to_grey_deep p) (IsA Q F .greyDeep) := 
  Spec.bindp (s_hcy_to_rgb_deep hQ hp) fun _ hp => s_rgb_deep_to_grey_deep hQ hp

theorem s_hcy_to_cmyk (hQ : Closed Q) {p : Ptr} (hp : Within F p) : Spec Q F (Converter.hcy_to_cmyk p) (IsA Q F .cmyk) := 
  Spec.bindp (s_hcy_to_rgb_deep hQ hp) fun _ hp => s_rgb_deep_to_cmyk hQ hp

theorem s_hcy_to_hsi (hQ : Closed Q) {p : Ptr} (hp : Within F p) : Spec Q F (Converter.hcy_to_hsi p) (IsA Q F .hsi) := 
  Spec.bindp (s_hcy_to_rgb_deep hQ hp) fun _ hp => s_rgb_deep_to_hsi hQ hp

theorem s_hcy_to_hsv (hQ : Closed Q) {p : Ptr} (hp : Within F p) : Spec Q F (Converter.hcy_to_hsv p) (IsA Q F .hsv) := 
  Spec.bindp (s_hcy_to_rgb_deep hQ hp) fun _ hp => s_rgb_deep_to_hsv hQ hp

theorem s_hcy_to_hsl (hQ : Closed Q) {p : Ptr} (hp : Within F p) : Spec Q F (Converter.hcy_to_hsl p) (IsA Q F .hsl) := 
  Spec.bindp (s_hcy_to_rgb_deep hQ hp) fun _ hp => s_rgb_deep_to_hsl hQ hp

theorem s_hcy_to_xyz (hQ : Closed Q) {p : Ptr} (hp : Within F p) : Spec Q F (Converter.hcy_to_xyz p) (IsA Q F .xyz) := 
  Spec.bindp (s_hcy_to_rgb_deep hQ hp) fun _ hp => s_rgb_deep_to_xyz hQ hp

theorem s_hcy_to_xyy (hQ : Closed Q) {p : Ptr} (hp : Within F p) : Spec Q F (Converter.hcy_to_xyy p) (IsA Q F .xyy) := 
  Spec.bindp (s_hcy_to_rgb_deep hQ hp) fun _ hp => s_rgb_deep_to_xyy hQ hp

theorem s_hcy_to_cieluv (hQ : Closed Q) {p : Ptr} (hp : Within F p) : Spec Q F (Converter.hcy_to_cieluv p) (IsA Q F .cieluv) := 
  Spec.bindp (s_hcy_to_rgb_deep hQ hp) fun _ hp => s_rgb_deep_to_cieluv hQ hp

theorem s_hcy_to_lab (hQ : Closed Q) {p : Ptr} (hp : Within F p) : Spec Q F (Converter.hcy_to_lab p) (IsA Q F .lab) := 
  Spec.bindp (s_hcy_to_rgb_deep hQ hp) fun _ hp => s_rgb_deep_to_lab hQ hp

theorem s_hcy_to_lch_ab (hQ : Closed Q) {p : Ptr} (hp : Within F p) : Spec Q F (Converter.hcy_to_lch_ab p) (IsA Q F .lchAb) := 
  Spec.bindp (s_hcy_to_rgb_deep hQ hp) fun _ hp => s_rgb_deep_to_lch_ab hQ hp

theorem s_hcy_to_lch_uv (hQ : Closed Q) {p : Ptr} (hp : Within F p) : Spec Q F (Converter.hcy_to_lch_uv p) (IsA Q F .lchUv) := 
  Spec.bindp (s_hcy_to_rgb_deep hQ hp) fun _ hp => s_rgb_deep_to_lch_uv hQ hp

theorem s_xyz_to_rgb_true (hQ : Closed Q) {p : Ptr} (hp : Within F p) : Spec Q F (Converter.xyz_to_rgb_true p) (IsA Q F .rgbTrue) := 
  Spec.bindp (s_xyz_to_rgb_deep hQ hp) fun _ hp => s_rgb_deep_to_rgb_true hQ hp

theorem s_xyz_to_grey_true (hQ : Closed Q) {p : Ptr} (hp : Within F p) : Spec Q F (Converter.xyz_to_grey_true p) (IsA Q F .greyTrue) := 
  Spec.bindp (s_xyz_to_rgb_deep hQ hp) fun _ hp => s_rgb_deep_to_grey_true hQ hp

theorem s_xyz_to_grey_deep (hQ : Closed Q) {p : Ptr} (hp : Within F p) : Spec Q F (Converter.xyz_to_grey_deep p) (IsA Q F .greyDeep) := 
  Spec.bindp (s_xyz_to_rgb_deep hQ hp) fun _ hp => s_rgb_deep_to_grey_deep hQ hp

theorem s_xyz_to_cmyk (hQ : Closed Q) {p : Ptr} (hp : Within F p) : Spec Q F (Converter.xyz_to_cmyk p) (IsA Q F .cmyk) := 
  Spec.bindp (s_xyz_to_rgb_deep hQ hp) fun _ hp => s_rgb_deep_to_cmyk hQ hp

theorem s_xyz_to_hsi (hQ : Closed Q) {p : Ptr} (hp : Within F p) : Spec Q F (Converter.xyz_to_hsi p) (IsA Q F .hsi) := 
  Spec.bindp (s_xyz_to_rgb_deep hQ hp) fun _ hp => s_rgb_deep_to_hsi hQ hp

theorem s_xyz_to_hsv (hQ : Closed Q) {p : Ptr} (hp : Within F p) : Spec Q F (Converter.xyz_to_hsv p) (IsA Q F .hsv) := 
  Spec.bindp (s_xyz_to_rgb_deep hQ hp) fun _ hp => s_rgb_deep_to_hsv hQ hp

theorem s_xyz_to_hsl (hQ : Closed Q) {p : Ptr} (hp : Within F p) : Spec Q F (Converter.xyz_to_hsl p) (IsA Q F .hsl) := 
  Spec.bindp (s_xyz_to_rgb_deep hQ hp) fun _ hp => s_rgb_deep_to_hsl hQ hp

theorem s_xyz_to_hcy (hQ : Closed Q) {p : Ptr} (hp : Within F p) : Spec Q F (Converter.xyz_to_hcy p) (IsA Q F .hcy) := 
  Spec.bindp (s_xyz_to_rgb_deep hQ hp) fun _ hp => s_rgb_deep_to_hcy hQ hp

theorem s_xyz_to_lch_ab (hQ : Closed Q) {p : Ptr} (hp : Within F p) : Spec Q F (Converter.xyz_to_lch_ab p) (IsA Q F .lchAb) := 
  Spec.bindp (s_xyz_to_lab hQ hp) fun _ hp => s_lab_to_lch_ab hQ hp

theorem s_xyz_to_lch_uv (hQ : Closed Q) {p : Ptr} (hp : Within F p) : Spec Q F (Converter.xyz_to_lch_uv p) (IsA Q F .lchUv) := 
  Spec.bindp (s_xyz_to_cieluv hQ hp) fun _ hp => s_cieluv_to_lch_uv hQ hp

theorem s_xyy_to_rgb_true (hQ : Closed Q) {p : Ptr} (hp : Within F p) : Spec Q F (Converter.xyy_to_rgb_true p) (IsA Q F .rgbTrue) := 
  Spec.bindp (s_xyy_to_xyz hQ hp) fun _ hp => s_xyz_to_rgb_true hQ hp

theorem s_xyy_to_rgb_deep (hQ : Closed Q) {p : Ptr} (hp : Within F p) : Spec Q F (Converter.xyy_to_rgb_deep p) (IsA Q F .rgbDeep) := 
  Spec.bindp (s_xyy_to_xyz hQ hp) fun _ hp => s_xyz_to_rgb_deep hQ hp

theorem s_xyy_to_grey_true (hQ : Closed Q) {p : Ptr} (hp : Within F p) : Spec Q F (Converter.xyy_to_grey_true p) (IsA Q F .greyTrue) := 
  Spec.bindp (s_xyy_to_xyz hQ hp) fun _ hp => s_xyz_to_grey_true hQ hp

theorem s_xyy_to_grey_deep (hQ : Closed Q) {p : Ptr} (hp : Within F p) : Spec Q F (Converter.xyy_to_grey_deep p) (IsA Q F .greyDeep) := 
  Spec.bindp (s_xyy_to_xyz hQ hp) fun _ hp => s_xyz_to_grey_deep hQ hp

theorem s_xyy_to_cmyk (hQ : Closed Q) {p : Ptr} (hp : Within F p) : Spec Q F (Converter.xyy_to_cmyk p) (IsA Q F .cmyk) := 
  Spec.bindp (s_xyy_to_xyz hQ hp) fun _ hp => s_xyz_to_cmyk hQ hp

theorem s_xyy_to_hsi (hQ : Closed Q) {p : Ptr} (hp : Within F p) : Spec Q F (Converter.xyy_to_hsi p) (IsA Q F .hsi) := 
  Spec.bindp (s_xyy_to_xyz hQ hp) fun _ hp => s_xyz_to_hsi hQ hp

theorem s_xyy_to_hsv (hQ : Closed Q) {p : Ptr} (hp : Within F p) : Spec Q F (Converter.xyy_to_hsv p) (IsA Q F .hsv) := 
  Spec.bindp (s_xyy_to_xyz hQ hp) fun _ hp => s_xyz_to_hsv hQ hp

theorem s_xyy_to_hsl (hQ : Closed Q) {p : Ptr} (hp : Within F p) : Spec Q F (Converter.xyy_to_hsl p) (IsA Q F .hsl) := 
  Spec.bindp (s_xyy_to_xyz hQ hp) fun _ hp => s_xyz_to_hsl hQ hp

theorem s_xyy_to_hcy (hQ : Closed Q) {p : Ptr} (hp : Within F p) : Spec Q F (Converter.xyy_to_hcy p) (IsA Q F .hcy) := 
  Spec.bindp (s_xyy_to_xyz hQ hp) fun _ hp => s_xyz_to_hcy hQ hp

theorem s_xyy_to_cieluv (hQ : Closed Q) {p : Ptr} (hp : Within F p) : Spec Q F (Converter.xyy_to_cieluv p) (IsA Q F .cieluv) := 
  Spec.bindp (s_xyy_to_xyz hQ hp) fun _ hp => s_xyz_to_cieluv hQ hp

theorem s_xyy_to_lab (hQ : Closed Q) {p : Ptr} (hp : Within F p) : Spec Q F (Converter.xyy_to_lab p) (IsA Q F .lab) := 
  Spec.bindp (s_xyy_to_xyz hQ hp) fun _ hp => s_xyz_to_lab hQ hp

theorem s_xyy_to_lch_ab (hQ : Closed Q) {p : Ptr} (hp : Within F p) : Spec Q F (Converter.xyy_to_lch_ab p) (IsA Q F .lchAb) := 
  Spec.bindp (s_xyy_to_lab hQ hp) fun _ hp => s_lab_to_lch_ab hQ hp

theorem s_xyy_to_lch_uv (hQ : Closed Q) {p : Ptr} (hp : Within F p) : Spec Q F (Converter.xyy_to_lch_uv p) (IsA Q F .lchUv) := 
  Spec.bindp (s_xyy_to_cieluv hQ hp) fun _ hp => s_cieluv_to_lch_uv hQ hp

theorem s_cieluv_to_rgb_true (hQ : Closed Q) {p : Ptr} (hp : Within F p) : Spec Q F (Converter.cieluv_to_rgb_true p) (IsA Q F .rgbTrue) := 
  Spec.bindp (s_cieluv_to_xyz hQ hp) fun _ hp => s_xyz_to_rgb_true hQ hp

theorem s_cieluv_to_rgb_deep (hQ : Closed Q) {p : Ptr} (hp : Within F p) : Spec Q F (Converter.cieluv_to_rgb_deep p) (IsA Q F .rgbDeep) := 
  Spec.bindp (s_cieluv_to_xyz hQ hp) fun _ hp => s_xyz_to_rgb_deep hQ hp

theorem s_cieluv_to_grey_true (hQ : Closed Q) {p : Ptr} (hp : Within F p) : Spec Q F (Converter.cieluv_to_grey_true p) (IsA Q F .greyTrue) := 
  Spec.bindp (s_cieluv_to_xyz hQ hp) fun _ hp => s_xyz_to_grey_true hQ hp

theorem s_cieluv_to_grey_deep (hQ : Closed Q) {p : Ptr} (hp : Within F p) : Spec Q F (Converter.cieluv_to_grey_deep p) (IsA Q F .greyDeep) := 
  Spec.bindp (s_cieluv_to_xyz hQ hp) fun _ hp => s_xyz_to_grey_deep hQ hp

theorem s_cieluv_to_cmyk (hQ : Closed Q) {p : Ptr} (hp : Within F p) : Spec Q F (Converter.cieluv_to_cmyk p) (IsA Q F .cmyk) := 
  Spec.bindp (s_cieluv_to_xyz hQ hp) fun _ hp => s_xyz_to_cmyk hQ hp

theorem s_cieluv_to_hsi (hQ : Closed Q) {p : Ptr} (hp : Within F p) : Spec Q F (Converter.cieluv_to_hsi p) (IsA Q F .hsi) := 
  Spec.bindp (s_cieluv_to_xyz hQ hp) fun _ hp => s_xyz_to_hsi hQ hp

theorem s_cieluv_to_hsv (hQ : Closed Q) {p : Ptr} (hp : Within F p) : Spec Q F (Converter.cieluv_to_hsv p) (IsA Q F .hsv) := 
  Spec.bindp (s_cieluv_to_xyz hQ hp) fun _ hp => s_xyz_to_hsv hQ hp

theorem s_cieluv_to_hsl (hQ : Closed Q) {p : Ptr} (hp : Within F p) : Spec Q F (Converter.cieluv_to_hsl p) (IsA Q F .hsl) := 
  Spec.bindp (s_cieluv_to_xyz hQ hp) fun _ hp => s_xyz_to_hsl hQ hp

theorem s_cieluv_to_hcy (hQ : Closed Q) {p : Ptr} (hp : Within F p) : Spec Q F (Converter.cieluv_to_hcy p) (IsA Q F .hcy) := 
  Spec.bindp (s_cieluv_to_xyz hQ hp) fun _ hp => s_xyz_to_hcy hQ hp

theorem s_cieluv_to_xyy (hQ : Closed Q) {p : Ptr} (hp : Within F p) : Spec Q F (Converter.cieluv_to_xyy p) (IsA Q F .xyy) := 
  Spec.bindp (s_cieluv_to_xyz hQ hp) fun _ hp => s_xyz_to_xyy hQ hp

theorem s_cieluv_to_lab (hQ : Closed Q) {p : Ptr} (hp : Within F p) : Spec Q F (Converter.cieluv_to_lab p) (IsA Q F .lab) := 
  Spec.bindp (s_cieluv_to_xyz hQ hp) fun _ hp => s_xyz_to_lab hQ hp

theorem s_cieluv_to_lch_ab (hQ : Closed Q) {p : Ptr} (hp : Within F p) : Spec Q F (Converter.cieluv_to_lch_ab p) (IsA Q F .lchAb) := 
  Spec.bindp (s_cieluv_to_lab hQ hp) fun _ hp => s_lab_to_lch_ab hQ hp

theorem s_lab_to_rgb_true (hQ : Closed Q) {p : Ptr} (hp : Within F p) : Spec Q F (Converter.lab_to_rgb_true p) (IsA Q F .rgbTrue) := 
  Spec.bindp (s_lab_to_xyz hQ hp) fun _ hp => s_xyz_to_rgb_true hQ hp

theorem s_lab_to_rgb_deep (hQ : Closed Q) {p : Ptr} (hp : Within F p) : Spec Q F (Converter.lab_to_rgb_deep p) (IsA Q F .rgbDeep) := 
  Spec.bindp (s_lab_to_xyz hQ hp) fun _ hp => s_xyz_to_rgb_deep hQ hp

theorem s_lab_to_grey_true (hQ : Closed Q) {p : Ptr} (hp : Within F p) : Spec Q F (Converter.lab_to_grey_true p) (IsA Q F .greyTrue) := 
  Spec.bindp (s_lab_to_xyz hQ hp) fun _ hp => s_xyz_to_grey_true hQ hp

theorem s_lab_to_grey_deep (hQ : Closed Q) {p : Ptr} (hp : Within F p) : Spec Q F (Converter.lab_to_grey_deep p) (IsA Q F .greyDeep) := 
  Spec.bindp (s_lab_to_xyz hQ hp) fun _ hp => s_xyz_to_grey_deep hQ hp

theorem s_lab_to_cmyk (hQ : Closed Q) {p : Ptr} (hp : Within F p) : Spec Q F (Converter.lab_to_cmyk p) (IsA Q F .cmyk) := 
  Spec.bindp (s_lab_to_xyz hQ hp) fun _ hp => s_xyz_to_cmyk hQ hp

theorem s_lab_to_hsi (hQ : Closed Q) {p : Ptr} (hp : Within F p) : Spec Q F (Converter.lab_to_hsi p) (IsA Q F .hsi) := 
  Spec.bindp (s_lab_to_xyz hQ hp) fun _ hp => s_xyz_to_hsi hQ hp

theorem s_lab_to_hsv (hQ : Closed Q) {p : Ptr} (hp : Within F p) : Spec Q F (Converter.lab_to_hsv p) (IsA Q F .hsv) := 
  Spec.bindp (s_lab_to_xyz hQ hp) fun _ hp => s_xyz_to_hsv hQ hp

theorem s_lab_to_hsl (hQ : Closed Q) {p : Ptr} (hp : Within F p) : Spec Q F (Converter.lab_to_hsl p) (IsA Q F .hsl) := 
  Spec.bindp (s_lab_to_xyz hQ hp) fun _ hp => s_xyz_to_hsl hQ hp

theorem s_lab_to_hcy (hQ : Closed Q) {p : Ptr} (hp : Within F p) : Spec Q F (Converter.lab_to_hcy p) (IsA Q F .hcy) := 
  Spec.bindp (s_lab_to_xyz hQ hp) fun _ hp => s_xyz_to_hcy hQ hp

theorem s_lab_to_xyy (hQ : Closed Q) {p : Ptr} (hp : Within F p) : Spec Q F (Converter.lab_to_xyy p) (IsA Q F .xyy) := 
  Spec.bindp (s_lab_to_xyz hQ hp) fun _ hp => s_xyz_to_xyy hQ hp

theorem s_lab_to_cieluv (hQ : Closed Q) {p : Ptr} (hp : Within F p) : Spec Q F (Converter.lab_to_cieluv p) (IsA Q F .cieluv) := 
  Spec.bindp (s_lab_to_xyz hQ hp) fun _ hp => s_xyz_to_cieluv hQ hp

theorem s_lab_to_lch_uv (hQ : Closed Q) {p : Ptr} (hp : Within F p) : Spec Q F (Converter.lab_to_lch_uv p) (IsA Q F .lchUv) := 
  Spec.bindp (s_lab_to_cieluv hQ hp) fun _ hp => s_cieluv_to_lch_uv hQ hp

theorem s_lch_ab_to_rgb_true (hQ : Closed Q) {p : Ptr} (hp : Within F p) : Spec Q F (Converter.lch_ab_to_rgb_true p) (IsA Q F .rgbTrue) := 
  Spec.bindp (s_lch_ab_to_lab hQ hp) fun _ hp => s_lab_to_rgb_true hQ hp

theorem s_lch_ab_to_rgb_deep (hQ : Closed Q) {p : Ptr} (hp : Within F p) : Spec Q F (Converter.lch_ab_to_rgb_deep p) (IsA Q F .rgbDeep) := 
  Spec.bindp (s_lch_ab_to_lab hQ hp) fun _ hp => s_lab_to_rgb_deep hQ hp

theorem s_lch_ab_to_grey_true (hQ : Closed Q) {p : Ptr} (hp : Within F p) : Spec Q F (Converter.lch_ab_to_grey_true p) (IsA Q F .greyTrue) := 
  Spec.bindp (s_lch_ab_to_lab hQ hp) fun _ hp => s_lab_to_grey_true hQ hp

theorem s_lch_ab_to_grey_deep (hQ : Closed Q) {p : Ptr} (hp : Within F p) : Spec Q F (Converter.lch_ab_to_grey_deep p) (IsA Q F .greyDeep) := 
  Spec.bindp (s_lch_ab_to_lab hQ hp) fun _ hp => s_lab_to_grey_deep hQ hp

theorem s_lch_ab_to_cmyk (hQ : Closed Q) {p : Ptr} (hp : Within F p) : Spec Q F (Converter.lch_ab_to_cmyk p) (IsA Q F .cmyk) := 
  Spec.bindp (s_lch_ab_to_lab hQ hp) fun _ hp => s_lab_to_cmyk hQ hp

theorem s_lch_ab_to_hsi (hQ : Closed Q) {p : Ptr} (hp : Within F p) : Spec Q F (Converter.lch_ab_to_hsi p) (IsA Q F .hsi) := 
  Spec.bindp (s_lch_ab_to_lab hQ hp) fun _ hp => s_lab_to_hsi hQ hp

theorem s_lch_ab_to_hsv (hQ : Closed Q) {p : Ptr} (hp : Within F p) : Spec Q F (Converter.lch_ab_to_hsv p) (IsA Q F .hsv) := 
  Spec.bindp (s_lch_ab_to_lab hQ hp) fun _ hp => s_lab_to_hsv hQ hp

theorem s_lch_ab_to_hsl (hQ : Closed Q) {p : Ptr} (hp : Within F p) : Spec Q F (Converter.lch_ab_to_hsl p) (IsA Q F .hsl) := 
  Spec.bindp (s_lch_ab_to_lab hQ hp) fun _ hp => s_lab_to_hsl hQ hp

theorem s_lch_ab_to_hcy (hQ : Closed Q) {p : Ptr} (hp : Within F p) : Spec Q F (Converter.lch_ab_to_hcy p) (IsA Q F .hcy) := 
  Spec.bindp (s_lch_ab_to_lab hQ hp) fun _ hp => s_lab_to_hcy hQ hp

theorem s_lch_ab_to_xyz (hQ : Closed Q) {p : Ptr} (hp : Within F p) : Spec Q F (Converter.lch_ab_to_xyz p) (IsA Q F .xyz) := 
  Spec.bindp (s_lch_ab_to_lab hQ hp) fun _ hp => s_lab_to_xyz hQ hp

theorem s_lch_ab_to_xyy (hQ : Closed Q) {p : Ptr} (hp : Within F p) : Spec Q F (Converter.lch_ab_to_xyy p) (IsA Q F .xyy) := 
  Spec.bindp (s_lch_ab_to_lab hQ hp) fun _ hp => s_lab_to_xyy hQ hp

theorem s_lch_ab_to_cieluv (hQ : Closed Q) {p : Ptr} (hp : Within F p) : Spec Q F (Converter.lch_ab_to_cieluv p) (IsA Q F .cieluv) := 
  Spec.bindp (s_lch_ab_to_lab hQ hp) fun _ hp => s_lab_to_cieluv hQ hp

theorem s_lch_ab_to_lch_uv (hQ : Closed Q) {p : Ptr} (hp : Within F p) : Spec Q F (Converter.lch_ab_to_lch_uv p) (IsA Q F .lchUv) := 
  Spec.bindp (s_lch_ab_to_cieluv hQ hp) fun _ hp => s_cieluv_to_lch_uv hQ hp

theorem s_lch_uv_to_rgb_true (hQ : Closed Q) {p : Ptr} (hp : Within F p) : Spec Q F (Converter.lch_uv_to_rgb_true p) (IsA Q F .rgbTrue) := 
  Spec.bindp (s_lch_uv_to_cieluv hQ hp) fun _ hp => s_cieluv_to_rgb_true hQ hp

theorem s_lch_uv_to_rgb_deep (hQ : Closed Q) {p : Ptr} (hp : Within F p) : Spec Q F (Converter.lch_uv_to_rgb_deep p) (IsA Q F .rgbDeep) := 
  Spec.bindp (s_lch_uv_to_cieluv hQ hp) fun _ hp => s_cieluv_to_rgb_deep hQ hp

theorem s_lch_uv_to_grey_true (hQ : Closed Q) {p : Ptr} (hp : Within F p) : Spec Q F (Converter.lch_uv_to_grey_true p) (IsA Q F .greyTrue) := 
  Spec.bindp (s_lch_uv_to_cieluv hQ hp) fun _ hp => s_cieluv_to_grey_true hQ hp

theorem s_lch_uv_to_grey_deep (hQ : Closed Q) {p : Ptr} (hp : Within F p) : Spec Q F (Converter.lch_uv_to_grey_deep p) (IsA Q F .greyDeep) := 
  Spec.bindp (s_lch_uv_to_cieluv hQ hp) fun _ hp => s_cieluv_to_grey_deep hQ hp

theorem s_lch_uv_to_cmyk (hQ : Closed Q) {p : Ptr} (hp : Within F p) : Spec Q F (Converter.lch_uv_to_cmyk p) (IsA Q F .cmyk) := 
  Spec.bindp (s_lch_uv_to_cieluv hQ hp) fun _ hp => s_cieluv_to_cmyk hQ hp

theorem s_lch_uv_to_hsi (hQ : Closed Q) {p : Ptr} (hp : Within F p) : Spec Q F (Converter.lch_uv_to_hsi p) (IsA Q F .hsi) := 
  Spec.bindp (s_lch_uv_to_cieluv hQ hp) fun _ hp => s_cieluv_to_hsi hQ hp

theorem s_lch_uv_to_hsv (hQ : Closed Q) {p : Ptr} (hp : Within F p) : Spec Q F (Converter.lch_uv_to_hsv p) (IsA Q F .hsv) := 
  Spec.bindp (s_lch_uv_to_cieluv hQ hp) fun _ hp => s_cieluv_to_hsv hQ hp

theorem s_lch_uv_to_hsl (hQ : Closed Q) {p : Ptr} (hp : Within F p) : Spec Q F (Converter.lch_uv_to_hsl p) (IsA Q F .hsl) := 
  Spec.bindp (s_lch_uv_to_cieluv hQ hp) fun _ hp => s_cieluv_to_hsl hQ hp

theorem s_lch_uv_to_hcy (hQ : Closed Q) {p : Ptr} (hp : Within F p) : Spec Q F (Converter.lch_uv_to_hcy p) (IsA Q F .hcy) := 
  Spec.bindp (s_lch_uv_to_cieluv hQ hp) fun _ hp => s_cieluv_to_hcy hQ hp

theorem s_lch_uv_to_xyz (hQ : Closed Q) {p : Ptr} (hp : Within F p) : Spec Q F (Converter.lch_uv_to_xyz p) (IsA Q F .xyz) := 
  Spec.bindp (s_lch_uv_to_cieluv hQ hp) fun _ hp => s_cieluv_to_xyz hQ hp

theorem s_lch_uv_to_xyy (hQ : Closed Q) {p : Ptr} (hp : Within F p) : Spec Q F (Converter.lch_uv_to_xyy p) (IsA Q F .xyy) := 
  Spec.bindp (s_lch_uv_to_cieluv hQ hp) fun _ hp => s_cieluv_to_xyy hQ hp

theorem s_lch_uv_to_lab (hQ : Closed Q) {p : Ptr} (hp : Within F p) : Spec Q F (Converter.lch_uv_to_lab p) (IsA Q F .lab) := 
  Spec.bindp (s_lch_uv_to_cieluv hQ hp) fun _ hp => s_cieluv_to_lab hQ hp

theorem s_lch_uv_to_lch_ab (hQ : Closed Q) {p : Ptr} (hp : Within F p) : Spec Q F (Converter.lch_uv_to_lch_ab p) (IsA Q F .lchAb) := 
  Spec.bindp (s_lch_uv_to_cieluv hQ hp) fun _ hp => s_cieluv_to_lch_ab hQ hp

theorem s_to_rgb_true (hQ : Closed Q) {p : Ptr} (hp : Within F p) : Spec Q F (Converter.to_rgb_true p) (IsA Q F .rgbTrue) := by
  refine spec_load_bind fun c t ht hq => ?_
  cases c.ctype
  · exact s_cast hQ _ hp
  · exact Spec.bindp (s_cast hQ _ hp) fun _ hq => s_rgb_deep_to_rgb_true hQ hq
  · exact Spec.bindp (s_cast hQ _ hp) fun _ hq => s_grey_true_to_rgb_true hQ hq
  · exact Spec.bindp (s_cast hQ _ hp) fun _ hq => s_grey_deep_to_rgb_true hQ hq
  · exact Spec.bindp (s_cast hQ _ hp) fun _ hq => s_cmyk_to_rgb_true hQ hq
  · exact Spec.bindp (s_cast hQ _ hp) fun _ hq => s_hsi_to_rgb_true hQ hq
  · exact Spec.bindp (s_cast hQ _ hp) fun _ hq => s_hsv_to_rgb_true hQ hq
  · exact Spec.bindp (s_cast hQ _ hp) fun _ hq => s_hsl_to_rgb_true hQ hq
  · exact Spec.bindp (s_cast hQ _ hp) fun _ hq => s_hcy_to_rgb_true hQ hq
  · exact Spec.bindp (s_cast hQ _ hp) fun _ hq => s_xyz_to_rgb_true hQ hq
  · exact Spec.bindp (s_cast hQ _ hp) fun _ hq => s_xyy_to_rgb_true hQ hq
  · exact Spec.bindp (s_cast hQ _ hp) fun _ hq => s_cieluv_to_rgb_true hQ hq
  · exact Spec.bindp (s_cast hQ _ hp) fun _ hq => s_lab_to_rgb_true hQ hq
  · exact Spec.bindp (s_cast hQ _ hp) fun _ hq => s_lch_ab_to_rgb_true hQ hq
  · exact Spec.bindp (s_cast hQ _ hp) fun _ hq => s_lch_uv_to_rgb_true hQ hq
  · exact s_none _

theorem s_to_rgb_deep (hQ : Closed Q) {p : Ptr} (hp : Within F p) : Spec Q F (Converter.to_rgb_deep p) (IsA Q F .rgbDeep) := by
  refine spec_load_bind fun c t ht hq => ?_
  cases c.ctype
  · exact Spec.bindp (s_cast hQ _ hp) fun _ hq => s_rgb_true_to_rgb_deep hQ hq
  · exact s_cast hQ _ hp
  · exact Spec.bindp (s_cast hQ _ hp) fun _ hq => s_grey_true_to_rgb_deep hQ hq
  · exact Spec.bindp (s_cast hQ _ hp) fun _ hq => s_grey_deep_to_rgb_deep hQ hq
  · exact Spec.bindp (s_cast hQ _ hp) fun _ hq => s_cmyk_to_rgb_deep hQ hq
  · exact Spec.bindp (s_cast hQ _ hp) fun _ hq => s_hsi_to_rgb_deep hQ hq
  · exact Spec.bindp (s_cast hQ _ hp) fun _ hq => s_hsv_to_rgb_deep hQ hq
  · exact Spec.bindp (s_cast hQ _ hp) fun _ hq => s_hsl_to_rgb_deep hQ hq
  · exact Spec.bindp (s_cast hQ _ hp) fun _ hq => s_hcy_to_rgb_deep hQ hq
  · exact Spec.bindp (s_cast hQ _ hp) fun _ hq => s_xyz_to_rgb_deep hQ hq
  · exact Spec.bindp (s_cast hQ _ hp) fun _ hq => s_xyy_to_rgb_deep hQ hq
  · exact Spec.bindp (s_cast hQ _ hp) fun _ hq => s_cieluv_to_rgb_deep hQ hq
  · exact Spec.bindp (s_cast hQ _ hp) fun _ hq => s_lab_to_rgb_deep hQ hq
  · exact Spec.bindp (s_cast hQ _ hp) fun _ hq => s_lch_ab_to_rgb_deep hQ hq
  · exact Spec.bindp (s_cast hQ _ hp) fun _ hq => s_lch_uv_to_rgb_deep hQ hq
  · exact s_none _

theorem s_to_grey_true (hQ : Closed Q) {p : Ptr} (hp : Within F p) : Spec Q F (Converter.to_grey_true p) (IsA Q F .greyTrue) := by
  refine spec_load_bind fun c t ht hq => ?_
  cases c.ctype
  · exact Spec.bindp (s_cast hQ _ hp) fun _ hq => s_rgb_true_to_grey_true hQ hq
  · exact Spec.bindp (s_cast hQ _ hp) fun _ hq => s_rgb_deep_to_grey_true hQ hq
  · exact s_cast hQ _ hp
  · exact Spec.bindp (s_cast hQ _ hp) fun _ hq => s_grey_deep_to_grey_true hQ hq
  · exact Spec.bindp (s_cast hQ _ hp) fun _ hq => s_cmyk_to_grey_true hQ hq
  · exact Spec.bindp (s_cast hQ _ hp) fun _ hq => s_hsi_to_grey_true hQ hq
  · exact Spec.bindp (s_cast hQ _ hp) fun _ hq => s_hsv_to_grey_true hQ hq
  · exact Spec.bindp (s_cast hQ _ hp) fun _ hq => s_hsl_to_grey_true hQ hq
  · exact Spec.bindp (s_cast hQ _ hp) fun _ hq => s_hcy_to_grey_true hQ hq
  · exact Spec.bindp (s_cast hQ _ hp) fun _ hq => s_xyz_to_grey_true hQ hq
  · exact Spec.bindp (s_cast hQ _ hp) fun _ hq => s_xyy_to_grey_true hQ hq
  · exact Spec.bindp (s_cast hQ _ hp) fun _ hq => s_cieluv_to_grey_true hQ hq
  · exact Spec.bindp (s_cast hQ _ hp) fun _ hq => s_lab_to_grey_true hQ hq
  · exact Spec.bindp (s_cast hQ _ hp) fun _ hq => s_lch_ab_to_grey_true hQ hq
  · exact Spec.bindp (s_cast hQ _ hp) fun _ hq => s_lch_uv_to_grey_true hQ hq
  · exact s_none _

theorem s_to_grey_deep (hQ : Closed Q) {p : Ptr} (hp : Within F p) : Spec Q F (Converter.to_grey_deep p) (IsA Q F .greyDeep) := by
  refine spec_load_bind fun c t ht hq => ?_
  cases c.ctype
  · exact Spec.bindp (s_cast hQ _ hp) fun _ hq => s_rgb_true_to_grey_deep hQ hq
  · exact Spec.bindp (s_cast hQ _ hp) fun _ hq => s_rgb_deep_to_grey_deep hQ hq
  · exact Spec.bindp (s_cast hQ _ hp) fun _ hq => s_grey_true_to_grey_deep hQ hq
  · exact s_cast hQ _ hp
  · exact Spec.bindp (s_cast hQ _ hp) fun _ hq => s_cmyk_to_grey_deep hQ hq
  · exact Spec.bindp (s_cast hQ _ hp) fun _ hq => s_hsi_to_grey_deep hQ hq
  · exact Spec.bindp (s_cast hQ _ hp) fun _ hq => s_hsv_to_grey_deep hQ hq
  · exact Spec.bindp (s_cast hQ _ hp) fun _ hq => s_hsl_to_grey_deep hQ hq
  · exact Spec.bindp (s_cast hQ _ hp) fun _ hq => s_hcy_to_grey_deep hQ hq
  · exact Spec.bindp (s_cast hQ _ hp) fun _ hq => s_xyz_to_grey_deep hQ hq
  · exact Spec.bindp (s_cast hQ _ hp) fun _ hq => s_xyy_to_grey_deep hQ hq
  · exact Spec.bindp (s_cast hQ _ hp) fun _ hq => s_cieluv_to_grey_deep hQ hq
  · exact Spec.bindp (s_cast hQ _ hp) fun _ hq => s_lab_to_grey_deep hQ hq
  · exact Spec.bindp (s_cast hQ _ hp) fun _ hq => s_lch_ab_to_grey_deep hQ hq
  · exact Spec.bindp (s_cast hQ _ hp) fun _ hq => s_lch_uv_to_grey_deep hQ hq
  · exact s_none _

theorem s_to_cmyk (hQ : Closed Q) {p : Ptr} (hp : Within F p) : Spec Q F (Converter.to_cmyk p) (IsA Q F .cmyk) := by
  refine spec_load_bind fun c t ht hq => ?_
  cases c.ctype
  · exact Spec.bindp (s_cast hQ _ hp) fun _ hq => s_rgb_true_to_cmyk hQ hq
  · exact Spec.bindp (s_cast hQ _ hp) fun _ hq => s_rgb_deep_to_cmyk hQ hq
  · exact Spec.bindp (s_cast hQ _ hp) fun _ hq => s_grey_true_to_cmyk hQ hq
  · exact Spec.bindp (s_cast hQ _ hp) fun _ hq => s_grey_deep_to_cmyk hQ hq
  · exact s_cast hQ _ hp
  · exact Spec.bindp (s_cast hQ _ hp) fun _ hq => s_hsi_to_cmyk hQ hq
  · exact Spec.bindp (s_cast hQ _ hp) fun _ hq => s_hsv_to_cmyk hQ hq
  · exact Spec.bindp (s_cast hQ _ hp) fun _ hq => s_hsl_to_cmyk hQ hq
  · exact Spec.bindp (s_cast hQ _ hp) fun _ hq => s_hcy_to_cmyk hQ hq
  · exact Spec.bindp (s_cast hQ _ hp) fun _ hq => s_xyz_to_cmyk hQ hq
  · exact Spec.bindp (s_cast hQ _ hp) fun _ hq => s_xyy_to_cmyk hQ hq
  · exact Spec.bindp (s_cast hQ _ hp) fun _ hq => s_cieluv_to_cmyk hQ hq
  · exact Spec.bindp (s_cast hQ _ hp) fun _ hq => s_lab_to_cmyk hQ hq
  · exact Spec.bindp (s_cast hQ _ hp) fun _ hq => s_lch_ab_to_cmyk hQ hq
  · exact Spec.bindp (s_cast hQ _ hp) fun _ hq => s_lch_uv_to_cmyk hQ hq
  · exact s_none _

theorem s_to_hsi (hQ : Closed Q) {p : Ptr} (hp : Within F p) : Spec Q F (Converter.to_hsi p) (IsA Q F .hsi) := by
  refine spec_load_bind fun c t ht hq => ?_
  cases c.ctype
  · exact Spec.bindp (s_cast hQ _ hp) fun _ hq => s_rgb_true_to_hsi hQ hq
  · exact Spec.bindp (s_cast hQ _ hp) fun _ hq => s_rgb_deep_to_hsi hQ hq
  · exact Spec.bindp (s_cast hQ _ hp) fun _ hq => s_grey_true_to_hsi hQ hq
  · exact Spec.bindp (s_cast hQ _ hp) fun _ hq => s_grey_deep_to_hsi hQ hq
  · exact Spec.bindp (s_cast hQ _ hp) fun _ hq => s_cmyk_to_hsi hQ hq
  · exact s_cast hQ _ hp
  · exact Spec.bindp (s_cast hQ _ hp) fun _ hq => s_hsv_to_hsi hQ hq
  · exact Spec.bindp (s_cast hQ _ hp) fun _ hq => s_hsl_to_hsi hQ hq
  · exact Spec.bindp (s_cast hQ _ hp) fun _ hq => s_hcy_to_hsi hQ hq
  · exact Spec.bindp (s_cast hQ _ hp) fun _ hq => s_xyz_to_hsi hQ hq
  · exact Spec.bindp (s_cast hQ _ hp) fun _ hq => s_xyy_to_hsi hQ hq
  · exact Spec.bindp (s_cast hQ _ hp) fun _ hq => s_cieluv_to_hsi hQ hq
  · exact Spec.bindp (s_cast hQ _ hp) fun _ hq => s_lab_to_hsi hQ hq
  · exact Spec.bindp (s_cast hQ _ hp) fun _ hq => s_lch_ab_to_hsi hQ hq
  · exact Spec.bindp (s_cast hQ _ hp) fun _ hq => s_lch_uv_to_hsi hQ hq
  · exact s_none _

theorem s_to_hsv (hQ : Closed Q) {p : Ptr} (hp : Within F p) : Spec Q F (Converter.to_hsv p) (IsA Q F .hsv) := by
  refine spec_load_bind fun c t ht hq => ?_
  cases c.ctype
  · exact Spec.bindp (s_cast hQ _ hp) fun _ hq => s_rgb_true_to_hsv hQ hq
  · exact Spec.bindp (s_cast hQ _ hp) fun _ hq => s_rgb_deep_to_hsv hQ hq
  · exact Spec.bindp (s_cast hQ _ hp) fun _ hq => s_grey_true_to_hsv hQ hq
  · exact Spec.bindp (s_cast hQ _ hp) fun _ hq => s_grey_deep_to_hsv hQ hq
  · exact Spec.bindp (s_cast hQ _ hp) fun _ hq => s_cmyk_to_hsv hQ hq
  · exact Spec.bindp (s_cast hQ _ hp) fun _ hq => s_hsi_to_hsv hQ hq
  · exact s_cast hQ _ hp
  · exact Spec.bindp (s_cast hQ _ hp) fun _ hq => s_hsl_to_hsv hQ hq
  · exact Spec.bindp (s_cast hQ _ hp) fun _ hq => s_hcy_to_hsv hQ hq
  · exact Spec.bindp (s_cast hQ _ hp) fun _ hq => s_xyz_to_hsv hQ hq
  · exact Spec.bindp (s_cast hQ _ hp) fun _ hq => s_xyy_to_hsv hQ hq
  · exact Spec.bindp (s_cast hQ _ hp) fun _ hq => s_cieluv_to_hsv hQ hq
  · exact Spec.bindp (s_cast hQ _ hp) fun _ hq => s_lab_to_hsv hQ hq
  · exact Spec.bindp (s_cast hQ _ hp) fun _ hq => s_lch_ab_to_hsv hQ hq
  · exact Spec.bindp (s_cast hQ _ hp) fun _ hq => s_lch_uv_to_hsv hQ hq
  · exact s_none _

theorem s_to_hsl (hQ : Closed Q) {p : Ptr} (hp : Within F p) : Spec Q F (Converter.to_hsl p) (IsA Q F .hsl) := by
  refine spec_load_bind fun c t ht hq => ?_
  cases c.ctype
  · exact Spec.bindp (s_cast hQ _ hp) fun _ hq => s_rgb_true_to_hsl hQ hq
  · exact Spec.bindp (s_cast hQ _ hp) fun _ hq => s_rgb_deep_to_hsl hQ hq
  · exact Spec.bindp (s_cast hQ _ hp) fun _ hq => s_grey_true_to_hsl hQ hq
  · exact Spec.bindp (s_cast hQ _ hp) fun _ hq => s_grey_deep_to_hsl hQ hq
  · exact Spec.bindp (s_cast hQ _ hp) fun _ hq => s_cmyk_to_hsl hQ hq
  · exact Spec.bindp (s_cast hQ _ hp) fun _ hq => s_hsi_to_hsl hQ hq
  · exact Spec.bindp (s_cast hQ _ hp) fun _ hq => s_hsv_to_hsl hQ hq
  · exact s_cast hQ _ hp
  · exact Spec.bindp (s_cast hQ _ hp) fun _ hq => s_hcy_to_hsl hQ hq
  · exact Spec.bindp (s_cast hQ _ hp) fun _ hq => s_xyz_to_hsl hQ hq
  · exact Spec.bindp (s_cast hQ _ hp) fun _ hq => s_xyy_to_hsl hQ hq
  · exact Spec.bindp (s_cast hQ _ hp) fun _ hq => s_cieluv_to_hsl hQ hq
  · exact Spec.bindp (s_cast hQ _ hp) fun _ hq => s_lab_to_hsl hQ hq
  · exact Spec.bindp (s_cast hQ _ hp) fun _ hq => s_lch_ab_to_hsl hQ hq
  · exact Spec.bindp (s_cast hQ _ hp) fun _ hq => s_lch_uv_to_hsl hQ hq
  · exact s_none _

theorem s_to_hcy (hQ : Closed Q) {p : Ptr} (hp : Within F p) : Spec Q F (Converter.to_hcy p) (IsA Q F .hcy) := by
  refine spec_load_bind fun c t ht hq => ?_
  cases c.ctype
  · exact Spec.bindp (s_cast hQ _ hp) fun _ hq => s_rgb_true_to_hcy hQ hq
  · exact Spec.bindp (s_cast hQ _ hp) fun _ hq => s_rgb_deep_to_hcy hQ hq
  · exact Spec.bindp (s_cast hQ _ hp) fun _ hq => s_grey_true_to_hcy hQ hq
  · exact Spec.bindp (s_cast hQ _ hp) fun _ hq => s_grey_deep_to_hcy hQ hq
  · exact Spec.bindp (s_cast hQ _ hp) fun _ hq => s_cmyk_to_hcy hQ hq
  · exact Spec.bindp (s_cast hQ _ hp) fun _ hq => s_hsi_to_hcy hQ hq
  · exact Spec.bindp (s_cast hQ _ hp) fun _ hq => s_hsv_to_hcy hQ hq
  · exact Spec.bindp (s_cast hQ _ hp) fun _ hq => s_hsl_to_hcy hQ hq
  · exact s_cast hQ _ hp
  · exact Spec.bindp (s_cast hQ _ hp) fun _ hq => s_xyz_to_hcy hQ hq
  · exact Spec.bindp (s_cast hQ _ hp) fun _ hq => s_xyy_to_hcy hQ hq
  · exact Spec.bindp (s_cast hQ _ hp) fun _ hq => s_cieluv_to_hcy hQ hq
  · exact Spec.bindp (s_cast hQ _ hp) fun _ hq => s_lab_to_hcy hQ hq
  · exact Spec.bindp (s_cast hQ _ hp) fun _ hq => s_lch_ab_to_hcy hQ hq
  · exact Spec.bindp (s_cast hQ _ hp) fun _ hq => s_lch_uv_to_hcy hQ hq
  · exact s_none _

theorem s_to_xyz (hQ : Closed Q) {p : Ptr} (hp : Within F p) : Spec Q F (Converter.to_xyz p) (IsA Q F .xyz) := by
  refine spec_load_bind fun c t ht hq => ?_
  cases c.ctype
  · exact Spec.bindp (s_cast hQ _ hp) fun _ hq => s_rgb_true_to_xyz hQ hq
  · exact Spec.bindp (s_cast hQ _ hp) fun _ hq => s_rgb_deep_to_xyz hQ hq
  · exact Spec.bindp (s_cast hQ _ hp) fun _ hq => s_grey_true_to_xyz hQ hq
  · exact Spec.bindp (s_cast hQ _ hp) fun _ hq => s_grey_deep_to_xyz hQ hq
  · exact Spec.bindp (s_cast hQ _ hp) fun _ hq => s_cmyk_to_xyz hQ hq
  · exact Spec.bindp (s_cast hQ _ hp) fun _ hq => s_hsi_to_xyz hQ hq
  · exact Spec.bindp (s_cast hQ _ hp) fun _ hq => s_hsv_to_xyz hQ hq
  · exact Spec.bindp (s_cast hQ _ hp) fun _ hq => s_hsl_to_xyz hQ hq
  · exact Spec.bindp (s_cast hQ _ hp) fun _ hq => s_hcy_to_xyz hQ hq
  · exact s_cast hQ _ hp
  · exact Spec.bindp (s_cast hQ _ hp) fun _ hq => s_xyy_to_xyz hQ hq
  · exact Spec.bindp (s_cast hQ _ hp) fun _ hq => s_cieluv_to_xyz hQ hq
  · exact Spec.bindp (s_cast hQ _ hp) fun _ hq => s_lab_to_xyz hQ hq
  · exact Spec.bindp (s_cast hQ _ hp) fun _ hq => s_lch_ab_to_xyz hQ hq
  · exact Spec.bindp (s_cast hQ _ hp) fun _ hq => s_lch_uv_to_xyz hQ hq
  · exact s_none _

theorem s_to_xyy (hQ : Closed Q) {p : Ptr} (hp : Within F p) : Spec Q F (Converter.to_xyy p) (IsA Q F .xyy) := by
  refine spec_load_bind fun c t ht hq => ?_
  cases c.ctype
  · exact Spec.bindp (s_cast hQ _ hp) fun _ hq => s_rgb_true_to_xyy hQ hq
  · exact Spec.bindp (s_cast hQ _ hp) fun _ hq => s_rgb_deep_to_xyy hQ hq
  · exact Spec.bindp (s_cast hQ _ hp) fun _ hq => s_grey_true_to_xyy hQ hq
  · exact Spec.bindp (s_cast hQ _ hp) fun _ hq => s_grey_deep_to_xyy hQ hq
  · exact Spec.bindp (s_cast hQ _ hp) fun _ hq => s_cmyk_to_xyy hQ hq
  · exact Spec.bindp (s_cast hQ _ hp) fun _ hq => s_hsi_to_xyy hQ hq
  · exact Spec.bindp (s_cast hQ _ hp) fun _ hq => s_hsv_to_xyy hQ hq
  · exact Spec.bindp (s_cast hQ _ hp) fun _ hq => s_hsl_to_xyy hQ hq
  · exact Spec.bindp (s_cast hQ _ hp) fun _ hq => s_hcy_to_xyy hQ hq
  · exact Spec.bindp (s_cast hQ _ hp) fun _ hq => s_xyz_to_xyy hQ hq
  · exact s_cast hQ _ hp
  · exact Spec.bindp (s_cast hQ _ hp) fun _ hq => s_cieluv_to_xyy hQ hq
  · exact Spec.bindp (s_cast hQ _ hp) fun _ hq => s_lab_to_xyy hQ hq
  · exact Spec.bindp (s_cast hQ _ hp) fun _ hq => s_lch_ab_to_xyy hQ hq
  · exact Spec.bindp (s_cast hQ _ hp) fun _ hq => s_lch_uv_to_xyy hQ hq
  · exact s_none _

theorem s_to_cieluv (hQ : Closed Q) {p : Ptr} (hp : Within F p) : Spec Q F (Converter.to_cieluv p) (IsA Q F .cieluv) := by
  refine spec_load_bind fun c t ht hq => ?_
  cases c.ctype
  · exact Spec.bindp (s_cast hQ _ hp) fun _ hq => s_rgb_true_to_cieluv hQ hq
  · exact Spec.bindp (s_cast hQ _ hp) fun _ hq => s_rgb_deep_to_cieluv hQ hq
  · exact Spec.bindp (s_cast hQ _ hp) fun _ hq => s_grey_true_to_cieluv hQ hq
  · exact Spec.bindp (s_cast hQ _ hp) fun _ hq => s_grey_deep_to_cieluv hQ hq
  · exact Spec.bindp (s_cast hQ _ hp) fun _ hq => s_cmyk_to_cieluv hQ hq
  · exact Spec.bindp (s_cast hQ _ hp) fun _ hq => s_hsi_to_cieluv hQ hq
  · exact Spec.bindp (s_cast hQ _ hp) fun _ hq => s_hsv_to_cieluv hQ hq
  · exact Spec.bindp (s_cast hQ _ hp) fun _ hq => s_hsl_to_cieluv hQ hq
  · exact Spec.bindp (s_cast hQ _ hp) fun _ hq => s_hcy_to_cieluv hQ hq
  · exact Spec.bindp (s_cast hQ _ hp) fun _ hq => s_xyz_to_cieluv hQ hq
  · exact Spec.bindp (s_cast hQ _ hp) fun _ hq => s_xyy_to_cieluv hQ hq
  · exact s_cast hQ _ hp
  · exact Spec.bindp (s_cast hQ _ hp) fun _ hq => s_lab_to_cieluv hQ hq
  · exact Spec.bindp (s_cast hQ _ hp) fun _ hq => s_lch_ab_to_cieluv hQ hq
  · exact Spec.bindp (s_cast hQ _ hp) fun _ hq => s_lch_uv_to_cieluv hQ hq
  · exact s_none _

theorem s_to_lab (hQ : Closed Q) {p : Ptr} (hp : Within F p) : Spec Q F (Converter.to_lab p) (IsA Q F .lab) := by
  refine spec_load_bind fun c t ht hq => ?_
  cases c.ctype
  · exact Spec.bindp (s_cast hQ _ hp) fun _ hq => s_rgb_true_to_lab hQ hq
  · exact Spec.bindp (s_cast hQ _ hp) fun _ hq => s_rgb_deep_to_lab hQ hq
  · exact Spec.bindp (s_cast hQ _ hp) fun _ hq => s_grey_true_to_lab hQ hq
  · exact Spec.bindp (s_cast hQ _ hp) fun _ hq => s_grey_deep_to_lab hQ hq
  · exact Spec.bindp (s_cast hQ _ hp) fun _ hq => s_cmyk_to_lab hQ hq
  · exact Spec.bindp (s_cast hQ _ hp) fun _ hq => s_hsi_to_lab hQ hq
  · exact Spec.bindp (s_cast hQ _ hp) fun _ hq => s_hsv_to_lab hQ hq
  · exact Spec.bindp (s_cast hQ _ hp) fun _ hq => s_hsl_to_lab hQ hq
  · exact Spec.bindp (s_cast hQ _ hp) fun _ hq => s_hcy_to_lab hQ hq
  · exact Spec.bindp (s_cast hQ _ hp) fun _ hq => s_xyz_to_lab hQ hq
  · exact Spec.bindp (s_cast hQ _ hp) fun _ hq => s_xyy_to_lab hQ hq
  · exact Spec.bindp (s_cast hQ _ hp) fun _ hq => s_cieluv_to_lab hQ hq
  · exact s_cast hQ _ hp
  · exact Spec.bindp (s_cast hQ _ hp) fun _ hq => s_lch_ab_to_lab hQ hq
  · exact Spec.bindp (s_cast hQ _ hp) fun _ hq => s_lch_uv_to_lab hQ hq
  · exact s_none _

theorem s_to_lch_ab (hQ : Closed Q) {p : Ptr} (hp : Within F p) : Spec Q F (Converter.to_lch_ab p) (IsA Q F .lchAb) := by
  refine spec_load_bind fun c t ht hq => ?_
  cases c.ctype
  · exact Spec.bindp (s_cast hQ _ hp) fun _ hq => s_rgb_true_to_lch_ab hQ hq
  · exact Spec.bindp (s_cast hQ _ hp) fun _ hq => s_rgb_deep_to_lch_ab hQ hq
  · exact Spec.bindp (s_cast hQ _ hp) fun _ hq => s_grey_true_to_lch_ab hQ hq
  · exact Spec.bindp (s_cast hQ _ hp) fun _ hq => s_grey_deep_to_lch_ab hQ hq
  · exact Spec.bindp (s_cast hQ _ hp) fun _ hq => s_cmyk_to_lch_ab hQ hq
  · exact Spec.bindp (s_cast hQ _ hp) fun _ hq => s_hsi_to_lch_ab hQ hq
  · exact Spec.bindp (s_cast hQ _ hp) fun _ hq => s_hsv_to_lch_ab hQ hq
  · exact Spec.bindp (s_cast hQ _ hp) fun _ hq => s_hsl_to_lch_ab hQ hq
  · exact Spec.bindp (s_cast hQ _ hp) fun _ hq => s_hcy_to_lch_ab hQ hq
  · exact Spec.bindp (s_cast hQ _ hp) fun _ hq => s_xyz_to_lch_ab hQ hq
  · exact Spec.bindp (s_cast hQ _ hp) fun _ hq => s_xyy_to_lch_ab hQ hq
  · exact Spec.bindp (s_cast hQ _ hp) fun _ hq => s_cieluv_to_lch_ab hQ hq
  · exact Spec.bindp (s_cast hQ _ hp) fun _ hq => s_lab_to_lch_ab hQ hq
  · exact s_cast hQ _ hp
  · exact Spec.bindp (s_cast hQ _ hp) fun _ hq => s_lch_uv_to_lch_ab hQ hq
  · exact s_none _

theorem s_to_lch_uv (hQ : Closed Q) {p : Ptr} (hp : Within F p) : Spec Q F (Converter.to_lch_uv p) (IsA Q F .lchUv) := by
  refine spec_load_bind fun c t ht hq => ?_
  cases c.ctype
  · exact Spec.bindp (s_cast hQ _ hp) fun _ hq => s_rgb_true_to_lch_uv hQ hq
  · exact Spec.bindp (s_cast hQ _ hp) fun _ hq => s_rgb_deep_to_lch_uv hQ hq
  · exact Spec.bindp (s_cast hQ _ hp) fun _ hq => s_grey_true_to_lch_uv hQ hq
  · exact Spec.bindp (s_cast hQ _ hp) fun _ hq => s_grey_deep_to_lch_uv hQ hq
  · exact Spec.bindp (s_cast hQ _ hp) fun _ hq => s_cmyk_to_lch_uv hQ hq
  · exact Spec.bindp (s_cast hQ _ hp) fun _ hq => s_hsi_to_lch_uv hQ hq
  · exact Spec.bindp (s_cast hQ _ hp) fun _ hq => s_hsv_to_lch_uv hQ hq
  · exact Spec.bindp (s_cast hQ _ hp) fun _ hq => s_hsl_to_lch_uv hQ hq
  · exact Spec.bindp (s_cast hQ _ hp) fun _ hq => s_hcy_to_lch_uv hQ hq
  · exact Spec.bindp (s_cast hQ _ hp) fun _ hq => s_xyz_to_lch_uv hQ hq
  · exact Spec.bindp (s_cast hQ _ hp) fun _ hq => s_xyy_to_lch_uv hQ hq
  · exact Spec.bindp (s_cast hQ _ hp) fun _ hq => s_cieluv_to_lch_uv hQ hq
  · exact Spec.bindp (s_cast hQ _ hp) fun _ hq => s_lab_to_lch_uv hQ hq
  · exact Spec.bindp (s_cast hQ _ hp) fun _ hq => s_lch_ab_to_lch_uv hQ hq
  · exact s_cast hQ _ hp
  · exact s_none _

theorem s_convertTo (hQ : Closed Q) {p : Ptr} (hp : Within F p) (t : ColorType) : Spec Q F (Converter.convertTo p t) (IsA Q F t) := by
  cases t
  · exact s_to_rgb_true hQ hp
  · exact s_to_rgb_deep hQ hp
  · exact s_to_grey_true hQ hp
  · exact s_to_grey_deep hQ hp
  · exact s_to_cmyk hQ hp
  · exact s_to_hsi hQ hp
  · exact s_to_hsv hQ hp
  · exact s_to_hsl hQ hp
  · exact s_to_hcy hQ hp
  · exact s_to_xyz hQ hp
  · exact s_to_xyy hQ hp
  · exact s_to_cieluv hQ hp
  · exact s_to_lab hQ hp
  · exact s_none _
  · exact s_none _
  · exact s_none _

end Tame
