import Verif.SafeLib
import Verif.SafetySpec
import Verif.Props.HexCodes
import Verif.Props.Homes

/-! # C151: careful programs never run into undefined behaviour -/

open Outcome Fl Prog ObjectSpec ConvSpec FrameSpec SessionSpec SafetySpec Tame

namespace Safe
variable [FloatModel] {P : ColorType → Prop} {x : Prop} {h : Heap}

theorem has_of_ready {t : ColorType} {p : Ptr} (hg : Good (Ranged P) h) (hp : Ready x h t p) : Has x h t p := by
  obtain ⟨i, c, rfl, hi, hc, h1, h2⟩ := hp
  obtain ⟨t', ht', hr⟩ := hg i c hi
  obtain rfl : t' = t := hr.1.ctype.symm.trans hc
  exact ⟨i, c, rfl, hi, hr.1, ht', h1, h2⟩

theorem ready_of_has {t : ColorType} {p : Ptr} (hp : Has x h t p) : Ready x h t p := by
  obtain ⟨i, c, rfl, hi, hc, -, h1, h2⟩ := hp
  exact ⟨i, c, rfl, hi, hc.ctype, h1, h2⟩

omit [FloatModel] in
theorem scanFields_total : ∀ (n : Nat) (l : List Char), l.length = 2 * n → (∀ c ∈ l, (Color.hexVal c).isSome) → ∃ r, Color.scanFields n l = some r ∧ r.length = n
  | 0, _, _, _ => ⟨[], rfl, rfl⟩
  | n + 1, a :: b :: l, hl, hc => by
    obtain ⟨r, e, hr⟩ := scanFields_total n l (by simp at hl; omega) fun c hc' => hc c (by simp [hc'])
    obtain ⟨u, eu⟩ := Option.isSome_iff_exists.mp (hc a (by simp))
    obtain ⟨v, ev⟩ := Option.isSome_iff_exists.mp (hc b (by simp))
    exact ⟨(16 * u + v) :: r, by simp [Color.scanFields, Color.scanHex2, eu, ev, e], by simp [hr]⟩
  | n + 1, [], hl, _ => by simp at hl
  | n + 1, [_], hl, _ => by simp at hl; omega

theorem hexString_safe {s : List Char} {sp : Option Nat} (hs : '#' ∉ s.tail) : Color.fromHexString s sp ≠ .ub := by
  have fin_safe : ∀ a r g b, Color.hexFinish sp a r g b ≠ .ub := fun a r g b => by
    simp [Color.hexFinish, Color.setChannel, Color.setComponent, Color.setComponentLim, Color.setAlpha, Color.base, Color.scalesAlpha]
  unfold Color.fromHexString
  split
  · simp
  · next hall =>
    have hall : s.all Color.hexOrHash := by by_contra hh; exact hall (Or.inr hh)
    rw [List.all_eq_true] at hall
    have hd : ∀ c ∈ Color.stripHash s, (Color.hexVal c).isSome := by
      intro c hc
      cases s with
      | nil => simp [Color.stripHash] at hc
      | cons a l =>
        have hne : c ≠ '#' ∧ c ∈ a :: l := by
          rw [Color.stripHash] at hc
          split at hc
          · exact ⟨fun e => hs (e ▸ hc), by simp [hc]⟩
          · next ha =>
            refine ⟨fun e => ?_, hc⟩
            rcases List.mem_cons.mp hc with rfl | hc
            · exact ha e
            · exact hs (e ▸ hc)
        have := hall c hne.2
        simpa [Color.hexOrHash, hne.1] using this
    simp only
    split
    · next hl =>
      obtain ⟨r, e, hr⟩ := scanFields_total 3 _ hl hd
      rw [e]
      match r, hr with
      | [a, b, c], _ => exact fin_safe _ _ _ _
    · split
      · next hl =>
        obtain ⟨r, e, hr⟩ := scanFields_total 4 _ hl hd
        rw [e]
        match r, hr with
        | [a, b, c, d], _ => exact fin_safe _ _ _ _
      · simp

theorem hexString_run {s : List Char} {sp : Option Nat} (hg : Good (Ranged P) h) (hs : '#' ∉ s.tail) (hx : x → h.world.Usable sp) :
    Runs P (do alloc (← lift (Color.fromHexString s sp))) h fun q h' => Has x h' .rgbTrue q := by
  cases e : Color.fromHexString s sp with
  | ub => exact absurd e (hexString_safe hs)
  | throw y =>
    have : (do alloc (← lift (Outcome.throw y : Outcome Color)) : Prog Ptr) = fun h => (.throw y, h) := rfl
    rw [this]
    exact ⟨Tame.after_refl h, hg, by simp, by simp⟩
  | ok c =>
    obtain ⟨_, _, _, _, e'⟩ := ObjectLemmas.hexString_cases e
    have hi := ObjectLemmas.hexFields_inv e'
    exact lift_bind rfl (r_alloc hg (by simp) (Tame.ranged_of_inv hi.1 hi.2.1 (by decide)) (by simp [Cie]) fun hh => by rw [hi.2.2]; exact hx hh)

theorem hexInt_run {code : BitVec 32} {sp : Option Nat} (hg : Good (Ranged P) h) (hx : x → h.world.Usable sp) : Runs P (Predefined.make code sp) h fun q h' => Has x h' .rgbTrue q := by
  obtain ⟨c, e⟩ : ∃ c, Color.fromHexInt code sp = ok c := by
    simp [Color.fromHexInt, Color.setChannel, Color.setComponent, Color.setComponentLim, Color.setAlpha, Color.base, Color.scalesAlpha]
  have hi := ObjectLemmas.hexInt_inv e
  exact lift_bind e (r_alloc hg (by simp) (Tame.ranged_of_inv hi.1 hi.2.1 (by decide)) (by simp [Cie]) fun hh => by rw [hi.2.2]; exact hx hh)

theorem ranged_at {t : ColorType} {p : Ptr} {c : Color} (hg : Good (Ranged P) h) (hp : Has x h t p) (hc : IsColor t c) (hi : ∀ i, p = some i → h.colors[i]? = some c) : Ranged P t c := by
  obtain ⟨i, _, rfl, _⟩ := hp
  obtain ⟨t', -, hr⟩ := hg i c (hi i rfl)
  have : t' = t := by rw [← hr.1.ctype, hc.ctype]
  exact this ▸ hr

theorem copy_run {p : Ptr} {s : ColorType} (hg : Good (Ranged P) h) (hp : Has x h s p) : Runs P (do alloc (← load p).copy) h fun q h' => Has x h' s q :=
  load_bind hp fun _ hc ht h1 h2 hi => r_alloc hg ht ((ranged_at hg hp hc hi).congr rfl rfl rfl rfl rfl) h1 h2

theorem fromBase_run {p : Ptr} {s t : ColorType} (hg : Good (Ranged P) h) (hp : Has x h s p) :
    Runs P (do alloc (← lift (Color.fromBase t (← load p)))) h fun q h' => Has x h' s q := by
  refine load_bind hp fun c hc ht h1 h2 hi => ?_
  unfold Color.fromBase
  split
  · next hh =>
    obtain rfl : s = t := hc.ctype.symm.trans hh.1
    exact lift_bind rfl (r_alloc hg ht ((ranged_at hg hp hc hi).congr hc.cls.symm hc.ctype.symm rfl rfl rfl) h1 h2)
  · exact r_throw hg

/-- With exact arithmetic the hue angles of finite LAB components are convertible to `int`. -/
theorem cie00_safe [ExactModel] {kL k1 k2 kC kH : Fl} {a b : Color} (ha : IsColor .lab a) (hb : IsColor .lab b) (ra : ComponentsInRange a) (rb : ComponentsInRange b) :
    Distance.cie00 kL k1 k2 kC kH a b ≠ .ub := by
  have three : ∀ {c : Color}, IsColor .lab c → ComponentsInRange c → ∃ l u v : ℝ, c.comps = [fin l, fin u, fin v] := by
    intro c hc rc
    obtain ⟨l, u, v, e⟩ := List.length_eq_three.mp hc.len
    have r0 := rc 0 (by rw [e]; simp)
    have r1 := rc 1 (by rw [e]; simp)
    have r2 := rc 2 (by rw [e]; simp)
    simp only [e, List.getElem_cons_zero, List.getElem_cons_succ] at r0 r1 r2
    obtain ⟨l', rfl, -⟩ := r0
    obtain ⟨u', rfl, -⟩ := r1
    obtain ⟨v', rfl, -⟩ := r2
    exact ⟨l', u', v', e⟩
  obtain ⟨l, u, v, ea⟩ := three ha ra
  obtain ⟨l', u', v', eb⟩ := three hb rb
  obtain ⟨e0, e1, e2⟩ := Distance.get_comps ea
  obtain ⟨f0, f1, f2⟩ := Distance.get_comps eb
  simp only [Distance.cie00, e0, e1, e2, f0, f1, f2, ok_bind, Distance.chroma_exact, sub_exact, add_exact]
  have d2 : ∀ x : ℝ, fin x / 2 = fin (x / 2) := fun x => by rw [lit_def, div_exact _ _ (by norm_num)]
  set c := Real.sqrt (u ^ 2 + v ^ 2) with hc
  set c' := Real.sqrt (u' ^ 2 + v' ^ 2) with hc'
  have c0 : 0 ≤ c := Real.sqrt_nonneg _
  have c0' : 0 ≤ c' := Real.sqrt_nonneg _
  have hm : 0 ≤ (c + c') / 2 := by positivity
  have hg : Fl.sqrt (powf (fin ((c + c') / 2)) 7 / (powf (fin ((c + c') / 2)) 7 + powf 25 7)) = fin (Distance.gR ((c + c') / 2)) := by
    have : (25 : Fl) = fin 25 := lit_def 25
    rw [this, Distance.powf_seven, Distance.powf_seven, add_exact, div_exact _ _ (by positivity), sqrt_exact _ (by positivity)]
    rfl
  simp only [d2, hg, one_def, sub_exact, mul_exact, add_exact, Distance.hueInt_exact, ok_bind]
  simp

theorem cie00_run (kL k1 k2 kC kH : Fl) {p q : Ptr} {s t : ColorType} (hx : x) (he : ExactModel) (hP : P .lab) (hg : Good (Ranged P) h) (hp : Has x h s p) (hq : Has x h t q) :
    Runs P (Distance.cielab_delta_e_cie00 kL k1 k2 kC kH p q) h fun _ _ => True :=
  between_run (m := .lab) (by simp) (fun _ => hx) (fun _ _ ha hb => cie00_safe ha.1 hb.1 (ha.2 hP) (hb.2 hP)) hg hp hq

theorem one {p : Prog Ptr} {t : ColorType} (hp : Runs P p h fun q h' => Maybe x h' t q) : Runs P p h fun a h' => ∀ q ∈ [a], q = none ∨ ∃ t, Has x h' t q :=
  hp.weaken fun a ha q hq => by
    obtain rfl := List.mem_singleton.mp hq
    exact ha.imp id fun hh => ⟨t, hh⟩

theorem many {p : Prog (List Ptr)} {t : ColorType} (hp : Runs P p h fun l h' => ∀ q ∈ l, Known x h' t q) : Runs P p h fun a h' => ∀ q ∈ id a, q = none ∨ ∃ t, Has x h' t q :=
  hp.weaken fun _ ha q hq => (ha q hq).maybe.imp id fun hh => ⟨t, hh⟩

theorem none {α : Type} {p : Prog α} (hp : Runs P p h fun _ _ => True) : Runs P p h fun _ h' => ∀ q ∈ ([] : List Ptr), q = Option.none ∨ ∃ t, Has x h' t q :=
  hp.weaken fun _ _ q hq => by simp at hq

theorem careful_run {hues : Prop} (hb : ¬ P .rgbDeep) (hh : hues → ExactModel ∧ P .lab) (hg : Good (Ranged P) h) {α : Type} {p : Prog α} {res : α → List Ptr} (hc : Careful x hues h α p res) :
    Runs P p h fun a h' => ∀ q ∈ res a, q = .none ∨ ∃ t, Has x h' t q := by
  have up : ∀ {t : ColorType} {p : Ptr}, Ready x h t p → Has x h t p := fun hp => has_of_ready hg hp
  have right : ∀ {p : Prog Ptr} {t : ColorType}, (Runs P p h fun q h' => Has x h' t q) → Runs P p h fun a h' => ∀ q ∈ [a], q = .none ∨ ∃ t, Has x h' t q :=
    fun hp => one (hp.weaken fun _ => Or.inr)
  have known : ∀ {p : Prog Ptr} {t : ColorType}, (Runs P p h fun q h' => Known x h' t q) → Runs P p h fun a h' => ∀ q ∈ [a], q = .none ∨ ∃ t, Has x h' t q :=
    fun hp => one (hp.weaken fun _ => Known.maybe)
  cases hc
  case create t vs al sp ht hl h1 h2 => exact right (make_last hg ht hl h1 h2)
  case hexInt code sp h2 => exact right (hexInt_run hg h2)
  case hexString s sp hs h2 => exact right (hexString_run hg hs h2)
  case copy p s hp => exact right (copy_run hg (up hp))
  case fromBase t p s ht hp => exact right (fromBase_run hg (up hp))
  case convertTo p s t hp h1 => exact known (convert_known hg (up hp) h1)
  case dispatcher p s t ht hp h1 => exact right (dispatcher ht hg (up hp) h1)
  case direct p s t hst ht hp h1 => exact right (direct ht hg (up hp) h1)
  case blend us ud ub f p q s t hp hq => exact one (operator_run hb us ud ub f hg (hp.imp id up) (hq.imp id up))
  case hue us ud p q s t hp hq => exact known (hue_run us ud hg (up hp) (up hq))
  case saturation us ud p q s t hp hq => exact known (saturation_run us ud hg (up hp) (up hq))
  case color us ud p q s t hp hq => exact known (color_run us ud hg (up hp) (up hq))
  case luminosity us ud p q s t hp hq => exact known (luminosity_run us ud hg (up hp) (up hq))
  case add w1 w2 ia p q s t hp hq => exact one (add_run w1 w2 ia hg (up hp) (up hq))
  case addOf t w1 w2 ia p q ht hp hq => exact right (addOf_run ht w1 w2 ia hg (up hp) (up hq))
  case mix w ia p q s t hp hq => exact one (mix_run w ia hg (up hp) (up hq))
  case mixOf t w ia p q ht hp hq => exact right (mixOf_run ht w ia hg (up hp) (up hq))
  case subtract w ia p q s t hp hq => exact one (subtract_run w ia hg (up hp) (up hq))
  case subOf t w ia p q ht hp hq => exact right (subOf_run ht w ia hg (up hp) (up hq))
  case average t ia ps ht h1 hp => exact right (average_run ht h1 ia hg fun p hm => up (hp p hm))
  case squared p q c s t h1 hp hq => exact none (squared_run c h1 hg (up hp) (up hq))
  case euclidean p q c s t hp hq => exact none (euclidean_run c hg (up hp) (up hq))
  case weighted p q s t hp hq => exact none (weighted_run hg (up hp) (up hq))
  case cie76 p q s t hx hp hq => exact none (cie76_run hx hg (up hp) (up hq))
  case cie94 kL k1 k2 kC kH p q s t hx hp hq => exact none (cie94_run kL k1 k2 kC kH hx hg (up hp) (up hq))
  case cie00 kL k1 k2 kC kH p q s t hu hx hp hq => exact none (cie00_run kL k1 k2 kC kH hx (hh hu).1 (hh hu).2 hg (up hp) (up hq))
  case cmc l c p q s t hx hp hq => exact none (cmc_run l c hx hg (up hp) (up hq))
  case saturateRgb p v s hp => exact known (saturateRgb_run v hg (up hp))
  case saturateHsl p v s hp => exact known (saturateHsl_run v hg (up hp))
  case luminateRgb p v s hp => exact known (luminateRgb_run v hg (up hp))
  case luminateHsl p v s hp => exact known (luminateHsl_run v hg (up hp))
  case combination p n s hp => exact many ((combination_run n hg (up hp)).weaken fun _ => And.right)
  case complimentary p s hp => exact known (complimentary_run hg (up hp))
  case triplet p s hp => exact many ((combination_run 3 hg (up hp)).weaken fun _ => And.right)
  case quartet p s hp => exact many ((combination_run 4 hg (up hp)).weaken fun _ => And.right)
  case quintet p s hp => exact many ((combination_run 5 hg (up hp)).weaken fun _ => And.right)
  case analogous p v s hp => exact many ((analogous_run v hg (up hp)).weaken fun _ => And.right)
  case monochromatic p mode v n s hs hp => exact many (monochromatic_run mode v n hs hg (up hp))
  case complimentarySplit p v s hs hp => exact many ((split_run v hs hg (up hp)).weaken fun _ => And.right)

theorem careful_call {cie hues : Prop} {α : Type} {p : Prog α} {res : α → List Ptr} (hc : Careful cie hues h α p res) : ∃ args pr, Call True args α p res pr := by
  cases hc
  case create t vs al sp ht hl h1 h2 => exact ⟨_, _, .create t vs al sp ht hl⟩
  case fromBase t p s ht hp => exact ⟨_, _, .fromBase t p ht⟩
  case direct p s t hst ht hp h1 => exact ⟨_, _, .direct p s t hst⟩
  case blend us ud ub f p q s t hp hq => exact ⟨_, _, .blend us ud ub f p q trivial⟩
  case addOf t w1 w2 ia p q ht hp hq => exact ⟨_, _, .addOf t w1 w2 ia p q ht⟩
  case mixOf t w ia p q ht hp hq => exact ⟨_, _, .mixOf t w ia p q ht⟩
  case subOf t w ia p q ht hp hq => exact ⟨_, _, .subOf t w ia p q ht⟩
  case average t ia ps ht h1 hp => exact ⟨_, _, .average t ia ps ht⟩
  case hexInt code sp _ => exact ⟨_, _, .hexInt code sp⟩
  case hexString s sp _ _ => exact ⟨_, _, .hexString s sp⟩
  case copy p s hp => exact ⟨_, _, .copy p⟩
  case convertTo p s t hp h1 => exact ⟨_, _, .convertTo p t⟩
  case dispatcher p s t ht hp h1 => exact ⟨_, _, .dispatcher p t⟩
  case hue us ud p q s t hp hq => exact ⟨_, _, .hue us ud p q⟩
  case saturation us ud p q s t hp hq => exact ⟨_, _, .saturation us ud p q⟩
  case color us ud p q s t hp hq => exact ⟨_, _, .color us ud p q⟩
  case luminosity us ud p q s t hp hq => exact ⟨_, _, .luminosity us ud p q⟩
  case add w1 w2 ia p q s t hp hq => exact ⟨_, _, .add w1 w2 ia p q⟩
  case mix w ia p q s t hp hq => exact ⟨_, _, .mix w ia p q⟩
  case subtract w ia p q s t hp hq => exact ⟨_, _, .subtract w ia p q⟩
  case squared p q c s t h1 hp hq => exact ⟨_, _, .squared p q c⟩
  case euclidean p q c s t hp hq => exact ⟨_, _, .euclidean p q c⟩
  case weighted p q s t hp hq => exact ⟨_, _, .weighted p q⟩
  case cie76 p q s t hx hp hq => exact ⟨_, _, .cie76 p q⟩
  case cie94 kL k1 k2 kC kH p q s t hx hp hq => exact ⟨_, _, .cie94 kL k1 k2 kC kH p q⟩
  case cie00 kL k1 k2 kC kH p q s t hu hx hp hq => exact ⟨_, _, .cie00 kL k1 k2 kC kH p q⟩
  case cmc l c p q s t hx hp hq => exact ⟨_, _, .cmc l c p q⟩
  case saturateRgb p v s hp => exact ⟨_, _, .saturateRgb p v⟩
  case saturateHsl p v s hp => exact ⟨_, _, .saturateHsl p v⟩
  case luminateRgb p v s hp => exact ⟨_, _, .luminateRgb p v⟩
  case luminateHsl p v s hp => exact ⟨_, _, .luminateHsl p v⟩
  case combination p n s hp => exact ⟨_, _, .combination p n⟩
  case complimentary p s hp => exact ⟨_, _, .complimentary p⟩
  case triplet p s hp => exact ⟨_, _, .triplet p⟩
  case quartet p s hp => exact ⟨_, _, .quartet p⟩
  case quintet p s hp => exact ⟨_, _, .quintet p⟩
  case analogous p v s hp => exact ⟨_, _, .analogous p v⟩
  case monochromatic p mode v n s hs hp => exact ⟨_, _, .monochromatic p mode v n⟩
  case complimentarySplit p v s hs hp => exact ⟨_, _, .complimentarySplit p v⟩

theorem careful_write {raws : Prop} {i : Nat} {p : Prog Unit} (hw : CarefulWrite raws h i p) : Write raws i p := by
  cases hw
  case setChannel k v _ => exact .setChannel i k v
  case setComponent k v _ => exact .setComponent i k v
  case setAlpha a _ => exact .setAlpha i a
  case setSpace sp _ => exact .setSpace i sp
  case gamma g _ => exact .gamma i g
  case alphaMultiply hr _ => exact .alphaMultiply i hr
  case alphaDivide hr _ => exact .alphaDivide i hr
  case assign j c o _ _ _ => exact .assign i (some j)
  case saturateRgb v _ _ _ _ => exact .saturateRgb i v
  case saturateHsl v _ _ _ _ => exact .saturateHsl i v
  case luminateRgb v _ _ _ _ => exact .luminateRgb i v
  case luminateHsl v _ _ _ _ => exact .luminateHsl i v

theorem rewrite_safe {i : Nat} {c : Color} {g : Color → Outcome Color} (hi : h.colors[i]? = some c) (hg : g c ≠ .ub) : (rewrite i g h).1 ≠ .ub := by
  have hl := (List.getElem?_eq_some_iff.mp hi).1
  unfold rewrite
  rw [bind_def, Combine.load_some hi]
  cases e : g c with
  | ub => exact absurd e hg
  | throw x => simp [bind_def, lift, e]
  | ok d => simp [bind_def, lift, e, store, hl]

theorem setComponentLim_safe (c : Color) (v : Fl) (i : Int) (a b : Fl) : Color.setComponentLim c v i a b ≠ .ub := by
  unfold Color.setComponentLim
  split <;> simp [Outcome.throwNewRange]

theorem setChannel_safe (c : Color) (k : Nat) (v : Fl) : c.setChannel k v ≠ .ub := by
  unfold Color.setChannel
  split <;> exact setComponentLim_safe _ _ _ _ _

theorem byReference_safe {f : Ptr → Fl → Prog Ptr} {i : Nat} {v : Fl} {s : ColorType} (hs : Convertible s) (hg : Good (Ranged P) h) (hp : Ready x h s (some i))
    (hf : Has x h s (some i) → Runs P (f (some i) v) h fun r h' => Known x h' s r) : (Adjust.byReference f i v h).1 ≠ .ub := by
  have hp := has_of_ready hg hp
  obtain ⟨ha, hg', hu, hr⟩ := hf hp
  unfold Adjust.byReference
  rw [bind_def]
  rcases e : f (some i) v h with ⟨o, h'⟩
  rw [e] at ha hg' hu hr
  cases o with
  | ub => exact absurd rfl hu
  | throw x => simp
  | ok q =>
    obtain ⟨k, r, rfl, hk, -⟩ := (hr q rfl).has hs
    obtain ⟨i', c, hi', hc, -⟩ := hp.mono ha hg'
    obtain rfl := Option.some.inj hi'
    have hl := (List.getElem?_eq_some_iff.mp hc).1
    simp only at hk hc hl
    simp only [bind_def, Combine.load_some hk, Combine.load_some hc, store, if_pos hl]
    simp

theorem careful_write_safe {raws : Prop} (hg : Good (Ranged P) h) {i : Nat} {p : Prog Unit} (hw : CarefulWrite raws h i p) : (p h).1 ≠ .ub := by
  have at_ : ∀ {i}, i < h.colors.length → ∃ c, h.colors[i]? = some c := fun hl => ⟨_, List.getElem?_eq_getElem hl⟩
  cases hw
  case setChannel k v hl => obtain ⟨c, hc⟩ := at_ hl; exact rewrite_safe hc (setChannel_safe c k v)
  case setComponent k v hl => obtain ⟨c, hc⟩ := at_ hl; exact rewrite_safe hc (setComponentLim_safe c v k _ _)
  case setAlpha a hl => obtain ⟨c, hc⟩ := at_ hl; exact rewrite_safe hc (by simp)
  case setSpace sp hl => obtain ⟨c, hc⟩ := at_ hl; exact rewrite_safe hc (by simp)
  case gamma g hl => obtain ⟨c, hc⟩ := at_ hl; exact rewrite_safe hc (by simp)
  case alphaMultiply hr hl => obtain ⟨c, hc⟩ := at_ hl; exact rewrite_safe hc (by simp)
  case alphaDivide hr hl => obtain ⟨c, hc⟩ := at_ hl; exact rewrite_safe hc (by simp)
  case assign j c o hc ho hco =>
    rw [bind_def, Combine.load_some ho]
    refine rewrite_safe hc ?_
    obtain ⟨t, -, hr⟩ := hg i c hc
    obtain ⟨t', -, hr'⟩ := hg j o ho
    rw [if_pos (by rw [hr.1.cls, hr'.1.cls, ← hr.1.ctype, ← hr'.1.ctype, hco])]
    simp
  case saturateRgb v cie s hs hp => exact byReference_safe hs hg hp (saturateRgb_run v hg)
  case saturateHsl v cie s hs hp => exact byReference_safe hs hg hp (saturateHsl_run v hg)
  case luminateRgb v cie s hs hp => exact byReference_safe hs hg hp (luminateRgb_run v hg)
  case luminateHsl v cie s hs hp => exact byReference_safe hs hg hp (luminateHsl_run v hg)

theorem careful_adapt {q : AdaptSpec.Method} {p : Ptr} (a t : Nat) (hg : Good (Ranged P) h) (hq : CarefulAdapt q h p) :
    (q.fn a p (some t) h).1 ≠ .ub ∧ ∀ r, (q.fn a p (some t) h).1 = ok r → r = .none ∨ ∃ s, Ready True (q.fn a p (some t) h).2 s r := by
  obtain ⟨s, hr, hw⟩ := hq
  obtain ⟨i, c, rfl, hi, hc, hs, -, hu⟩ := has_of_ready hg hr
  obtain ⟨sp, hsp, hu⟩ := hu trivial
  obtain ⟨u, hwh⟩ := Option.ne_none_iff_exists'.mp hu.white
  obtain ⟨f, ef, hf⟩ := AdaptSpec.core_total q
  have hown := (Adapt.effect_color (w := h.world) (s := s) hc).1.len
  rw [ef]
  by_cases hut : u = t
  · have : Adapt.adapt f a (some i) (some t) h = (ok (some i), h) := by
      simp [Adapt.adapt, bind_def, Combine.load_some hi, world, lift, Adapt.whiteOf_some hsp, hwh, hut]
    rw [this]
    refine ⟨by simp, fun r e => Or.inr ⟨s, ?_⟩⟩
    rw [← ok_inj.mp e]
    exact hr
  · obtain ⟨y, v0, v1, v2, d, h1, -, -, -, hdu, -, -, -, -, -, e⟩ := Adapt.adapt_most (a := a) hs hc hi hsp hu hwh hut
      (fun x y z => hf (Conv.effect s .xyz h.world c).comps (fun hn => by rw [hown]; exact AdaptSpec.wide_count hs (hw hn)) x y z (h.world.whites u).tri (h.world.whites t).tri)
    have hspec := Tame.adapt_spec (F := fun _ => True) (Tame.ranged_closed (P := fun _ => False)) f a (p := some i) (fun _ _ => trivial) (some t) h
    rw [e]
    set h2 : Heap := ⟨Adapt.extend h.world a d, h1.colors ++ [Color.mkXyz .xyz v0 v1 v2 y.alpha (some a)]⟩ with hh2
    by_cases ht : Combine.Target s
    · obtain ⟨r, er, hr2, hrs⟩ := val_to_total (s := .xyz) (t := s) (w := Adapt.extend h.world a d) (by simp) hs (Adapt.xyz_color v0 v1 v2 y.alpha (some a)) (fun _ _ => Adapt.extend_usable hdu)
      obtain ⟨k, h3, e3, c3⟩ := Combine.convert_run (s := .xyz) (t := s) (h := h2) (i := h1.colors.length) (by simp) ht (Adapt.xyz_color v0 v1 v2 y.alpha (some a)) (by simp [hh2]) er
      rw [e3]
      refine ⟨by simp, fun q eq => Or.inr ⟨s, ?_⟩⟩
      obtain rfl := ok_inj.mp eq
      refine ⟨k, r, rfl, c3.here, hr2.ctype, fun _ => trivial, fun _ => ?_⟩
      show h3.world.Usable r.space
      rw [c3.world, show r.space = some a from hrs]
      exact Adapt.extend_usable hdu
    · have : Converter.convertTo (some h1.colors.length) s = pure .none := by
        cases s <;> first | rfl | exact absurd (by simp [Combine.Target]) ht
      rw [this]
      exact ⟨by simp, fun q eq => Or.inl (ok_inj.mp eq).symm⟩

end Safe

/-! ## C151 -/

section
variable [FloatModel]

/-- C151: a careful call does not end in undefined behaviour, in any memory a program can reach.  CIEDE2000 is included when the arithmetic is exact and `alpha_multiply` and `alpha_divide` were not used. -/
theorem C151_call (cie hues raws : Prop) (hh : hues → ExactModel ∧ ¬ raws) (h : Heap) (hs : Session True raws h) (α : Type) (p : Prog α) (res : α → List Ptr) (hc : Careful cie hues h α p res) :
    (p h).1 ≠ .ub := by
  have hg := Tame.session_good (P := fun t => t = .lab ∧ ¬ raws) (fun _ hp => by simp at hp) (fun hr _ hp => hp.2 hr) hs
  exact (Safe.careful_run (fun hp => by simp at hp) (fun hu => ⟨(hh hu).1, rfl, (hh hu).2⟩) hg hc).2.2.1

/-- C151: a careful call may be followed by others: each pointer it returns is null or points to an object that is ready for further calls. -/
theorem C151_results (cie hues raws : Prop) (hh : hues → ExactModel ∧ ¬ raws) (h : Heap) (hs : Session True raws h) (α : Type) (p : Prog α) (res : α → List Ptr) (hc : Careful cie hues h α p res)
    (a : α) (h' : Heap) (e : p h = (ok a, h')) : ∀ q ∈ res a, q = none ∨ ∃ t, Ready cie h' t q := by
  have hg := Tame.session_good (P := fun t => t = .lab ∧ ¬ raws) (fun _ hp => by simp at hp) (fun hr _ hp => hp.2 hr) hs
  have := (Safe.careful_run (fun hp => by simp at hp) (fun hu => ⟨(hh hu).1, rfl, (hh hu).2⟩) hg hc).2.2.2 a (by rw [e])
  rw [e] at this
  exact fun q hq => (this q hq).imp id fun ⟨t, ht⟩ => ⟨t, Safe.ready_of_has ht⟩

/-- C151: what was ready before a careful call is ready after it. -/
theorem C151_stays (cie hues raws : Prop) (hh : hues → ExactModel ∧ ¬ raws) (h : Heap) (hs : Session True raws h) (α : Type) (p : Prog α) (res : α → List Ptr) (hc : Careful cie hues h α p res)
    (cie' : Prop) (t : ColorType) (q : Ptr) (hq : Ready cie' h t q) : Ready cie' (p h).2 t q := by
  have hg := Tame.session_good (P := fun t => t = .lab ∧ ¬ raws) (fun _ hp => by simp at hp) (fun hr _ hp => hp.2 hr) hs
  have := Safe.careful_run (fun hp => by simp at hp) (fun hu => ⟨(hh hu).1, rfl, (hh hu).2⟩) hg hc
  exact Safe.ready_of_has ((Safe.has_of_ready hg hq).mono this.1 this.2.1)

/-- C151: a careful write does not end in undefined behaviour. -/
theorem C151_write (raws : Prop) (h : Heap) (hs : Session True raws h) (i : Nat) (p : Prog Unit) (hw : CarefulWrite raws h i p) : (p h).1 ≠ .ub :=
  Safe.careful_write_safe (Tame.session_good (P := fun _ => False) (fun _ hp => hp) (fun _ _ hp => hp) hs) hw

/-- C151: a careful adaptation does not end in undefined behaviour, and its result is null or ready for further calls. -/
theorem C151_adapt (raws : Prop) (h : Heap) (hs : Session True raws h) (q : AdaptSpec.Method) (a t : Nat) (p : Ptr) (hq : CarefulAdapt q h p) :
    (q.fn a p (some t) h).1 ≠ .ub ∧ ∀ r, (q.fn a p (some t) h).1 = ok r → r = none ∨ ∃ s, Ready True (q.fn a p (some t) h).2 s r :=
  Safe.careful_adapt a t (Tame.session_good (P := fun _ => False) (fun _ hp => hp) (fun _ _ hp => hp) hs) hq

/-- C151: no step of a careful program ends in undefined behaviour, however long it runs. -/
theorem C151_program (hues raws : Prop) (hh : hues → ExactModel ∧ ¬ raws) (h : Heap) (hs : CarefulSession hues raws h) : Session True raws h := by
  induction hs with
  | start w => exact .start w
  | call h cie α p res _ hc ih =>
    obtain ⟨args, pr, hca⟩ := Safe.careful_call hc
    exact .call h args α p res pr ih hca (C151_call cie hues raws hh h ih α p res hc)
  | write h i p _ hw ih => exact .write h i p ih (Safe.careful_write hw) (C151_write raws h ih i p hw)
  | adapt h q a t p _ hq ih =>
    obtain ⟨f, ef⟩ := AdaptSpec.fn_core q
    have := (C151_adapt raws h ih q a t p hq).1
    rw [ef] at this ⊢
    exact .adapt h f a p (some t) ih this
  | create h t vs al sp _ ht hl ih =>
    refine .call h _ _ _ _ _ ih (.create t vs al sp ht hl) ?_
    obtain ⟨c, e⟩ := Conv.construct_total t al sp hl
    simp [bind_def, lift, e, alloc]
  | world h w _ ih => exact .world h w ih

/-- A careful program: it makes an RGB colour in the sRGB space, converts it to LAB and asks for the CIE76 difference of the two. -/
example [ExactModel] [StdSort] : ∃ (w : World) (c : Color) (q : Ptr) (h : Heap), Converter.convertTo (some 0) .lab ⟨w, [c]⟩ = (ok q, h) ∧ q ≠ none ∧ CarefulSession False False h ∧
    Careful True False h Fl (Distance.cielab_delta_e_cie76 (some 0) q) (fun _ => []) ∧ (Distance.cielab_delta_e_cie76 (some 0) q h).1 ≠ .ub := by
  obtain ⟨w, hw, -⟩ := exists_two
  obtain ⟨c, ec⟩ := Conv.construct_total .rgbDeep (vs := [fin 0.2, fin 0.5, fin 0.9]) 1 (some 0) rfl
  have hc := Conv.construct_result (t := .rgbDeep) (by simp) rfl ec
  have s1 : CarefulSession False False ⟨w, [c]⟩ := by
    have := CarefulSession.create (hues := False) (raws := False) ⟨w, []⟩ .rgbDeep [fin 0.2, fin 0.5, fin 0.9] 1 (some 0) (.start w) (by simp) rfl
    simp only [bind_def, lift, ec, alloc] at this
    exact this
  have r0 : Ready True ⟨w, [c]⟩ .rgbDeep (some 0) := ⟨0, c, rfl, rfl, hc.col.ctype, fun _ => trivial, fun _ => by rw [hc.space]; exact hw⟩
  have k : Careful True False ⟨w, [c]⟩ Ptr (Converter.convertTo (some 0) .lab) (fun q => [q]) := .convertTo _ _ _ r0 fun _ => trivial
  have hs := C151_program False False (by simp) _ s1
  have hg := Tame.session_good (P := fun _ => False) (fun _ hp => hp) (fun _ _ hp => hp) hs
  obtain ⟨x, ex, -⟩ := val_to_total (s := .rgbDeep) (t := .lab) (w := w) (by simp) (by simp) hc.col (fun _ _ => by rw [hc.space]; exact hw)
  obtain ⟨n, h, e, -⟩ := Combine.convert_run (s := .rgbDeep) (t := .lab) (h := ⟨w, [c]⟩) (i := 0) (by simp) ⟨by simp, by simp, by simp⟩ hc.col rfl ex
  have s2 := CarefulSession.call _ True _ _ _ s1 k
  have r1 := C151_stays True False False (by simp) _ hs _ _ _ k True .rgbDeep (some 0) r0
  have r2 := C151_results True False False (by simp) _ hs _ _ _ k _ _ e (some n) (by simp)
  rw [e] at s2 r1
  obtain ⟨t, r2⟩ := r2.resolve_left (by simp)
  have k2 : Careful True False h Fl (Distance.cielab_delta_e_cie76 (some 0) (some n)) (fun _ => []) := .cie76 _ _ _ _ trivial r1 r2
  exact ⟨w, c, some n, h, e, by simp, s2, k2, C151_call True False False (by simp) h (C151_program False False (by simp) h s2) _ _ _ k2⟩

end
