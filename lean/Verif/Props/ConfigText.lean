import Verif.Proof.ConfigText
import Verif.Props.CommandLine

/-! # C112: what a configuration file says -/

namespace StepperPaths.Props
open ConfigText Config StepperPaths.Spec.Svg StepperPaths.Spec.Json

theorem stop_ws {w : List Char} (hw : Ws w) : Svg.Stop w := by
  have := ws_stop hw (r := []) (by simp [Svg.Stop, Svg.NoHead])
  simpa using this

/-- What is read is the text of a JSON value that says this configuration. -/
theorem C112_json (conv : List Char → Option ℝ) {text : List Char} {c : Full} (h : readConfig conv text = some c) :
    ∃ pre t post, Ws pre ∧ Ws post ∧ t.Valid ∧ text = pre ++ t.text ++ post ∧ IsConfig conv c t := by
  obtain ⟨⟨r, c'⟩, h1, h2⟩ := Option.bind_eq_some_iff.1 h
  simp only at h2
  split at h2
  · rename_i hr
    cases h2
    obtain ⟨t, ht, e, hc⟩ := (good_config conv _).sound _ _ _ h1
    obtain ⟨w, hw, e1⟩ := of_skipWs text
    obtain ⟨w', hw', e2⟩ := of_skipWs r
    rw [hr, List.append_nil] at e2
    subst e2
    refine ⟨w, t, r, hw, hw', ht, ?_, hc⟩
    rw [List.append_assoc, ← e]
    exact e1
  · simp at h2

/-- The text of a JSON value is accepted exactly if the value says a configuration. -/
theorem C112_reads (conv : List Char → Option ℝ) {pre post : List Char} (hpre : Ws pre) (hpost : Ws post) {t : Tree}
    (ht : t.Valid) (c : Full) : readConfig conv (pre ++ t.text ++ post) = some c ↔ IsConfig conv c t := by
  constructor
  · intro h
    obtain ⟨pre', t', post', h1, h2, h3, e, hc⟩ := C112_json conv h
    rw [List.append_assoc, List.append_assoc] at e
    obtain ⟨-, e1⟩ := skip_inj hpre h1 ht h3 e
    obtain ⟨rfl, -⟩ := tree_inj t t' ht h3 (stop_ws hpost) (stop_ws h2) e1
    exact hc
  · intro h
    rw [readConfig, List.append_assoc, skip_tree hpre t ht]
    rw [(good_config conv _).complete t post c ht h (by simp; omega) (stop_ws hpost), Option.bind_some]
    have : skipWs post = [] := by
      have := skipWs_run hpost (r := []) (by simp [Svg.NoHead])
      simpa using this
    simp [this]

/-! ### What is refused -/

/-- The names of the fields. -/
def configNames : List String := ["ticksPerSecond", "stepperX", "stepperY", "laser"]

theorem config_once {conv : List Char → Option ℝ} {c : Full} {t : Tree} (h : IsConfig conv c t)
    {l : List (Str × Tree)} (hl : t.members = some l) {name : String} (hn : name ∈ configNames) :
    ∃ Q, Once l name Q := by
  rcases h with ⟨l', e, -⟩ | ⟨l', e, -, h⟩
  · cases t <;> simp [Tree.elems, Tree.members] at e hl
  · rw [hl, Option.some.injEq] at e
    subst e
    simp only [configNames, List.mem_cons, List.not_mem_nil, or_false] at hn
    rcases hn with rfl | rfl | rfl | rfl
    · exact ⟨_, h ("ticksPerSecond", IsU32 c.xy.ticksPerSecond) (by simp)⟩
    · exact ⟨_, h ("stepperX", IsStepper conv (c.xy.stepper .x)) (by simp)⟩
    · exact ⟨_, h ("stepperY", IsStepper conv (c.xy.stepper .y)) (by simp)⟩
    · exact ⟨_, h ("laser", IsLaser c.laser) (by simp)⟩

/-- An object without one of the fields is refused. -/
theorem C112_missing (conv : List Char → Option ℝ) {pre post : List Char} (hpre : Ws pre) (hpost : Ws post) {t : Tree}
    (ht : t.Valid) {l : List (Str × Tree)} (hl : t.members = some l) {name : String} (hn : name ∈ configNames)
    (hno : ∀ m ∈ l, ¬ Says m.1 name.toList) : readConfig conv (pre ++ t.text ++ post) = none := by
  cases h : readConfig conv (pre ++ t.text ++ post) with
  | none => rfl
  | some c =>
    obtain ⟨Q, before, m, after, rfl, h1, -⟩ := config_once ((C112_reads conv hpre hpost ht c).1 h) hl hn
    exact absurd h1 (hno m (by simp))

/-- An object in which one of the fields occurs twice is refused, also if the values are the same. -/
theorem C112_twice (conv : List Char → Option ℝ) {pre post : List Char} (hpre : Ws pre) (hpost : Ws post) {t : Tree}
    (ht : t.Valid) {a b c : List (Str × Tree)} {m m' : Str × Tree} (hl : t.members = some (a ++ m :: b ++ m' :: c))
    {name : String} (hn : name ∈ configNames) (h1 : Says m.1 name.toList) (h2 : Says m'.1 name.toList) :
    readConfig conv (pre ++ t.text ++ post) = none := by
  cases h : readConfig conv (pre ++ t.text ++ post) with
  | none => rfl
  | some cfg =>
    exfalso
    obtain ⟨Q, before, o, after, e, g1, -, g3⟩ := config_once ((C112_reads conv hpre hpost ht cfg).1 h) hl hn
    have hc : ((a ++ m :: b ++ m' :: c).filter fun x => open scoped Classical in decide (Says x.1 name.toList)) =
        (before ++ o :: after).filter fun x => open scoped Classical in decide (Says x.1 name.toList) := by rw [e]
    have e1 : before.filter (fun x => open scoped Classical in decide (Says x.1 name.toList)) = [] := by
      rw [List.filter_eq_nil_iff]
      intro x hx
      simpa using g3 x (by simp [hx])
    have e2 : after.filter (fun x => open scoped Classical in decide (Says x.1 name.toList)) = [] := by
      rw [List.filter_eq_nil_iff]
      intro x hx
      simpa using g3 x (by simp [hx])
    rw [List.filter_append, List.filter_append, List.filter_append, List.filter_cons, List.filter_cons,
      List.filter_cons, e1, e2, if_pos (by simpa using h1), if_pos (by simpa using h2), if_pos (by simpa using g1)] at hc
    have := congrArg List.length hc
    simp at this
    omega

/-! ### What does not matter -/

theorem once_perm {l l' : List (Str × Tree)} (hp : l.Perm l') {name : String} {Q : Tree → Prop} (h : Once l name Q) :
    Once l' name Q := by
  classical
  obtain ⟨before, m, after, rfl, h1, h2, h3⟩ := h
  have hm : m ∈ l' := hp.subset (by simp)
  obtain ⟨before', after', rfl⟩ := List.append_of_mem hm
  refine ⟨before', m, after', rfl, h1, h2, fun o ho => h3 o ?_⟩
  have : (before ++ after).Perm (before' ++ after') := by
    have a := List.perm_middle (a := m) (l₁ := before) (l₂ := after)
    have b := List.perm_middle (a := m) (l₁ := before') (l₂ := after')
    exact (List.perm_cons m).1 ((a.symm.trans hp).trans b)
  exact this.symm.subset ho

theorem record_perm {fs : List (String × (Tree → Prop))} {t t' : Tree} {l l' : List (Str × Tree)}
    (hl : t.members = some l) (hl' : t'.members = some l') (hp : l.Perm l') (h : IsRecord fs t) : IsRecord fs t' := by
  rcases h with ⟨k, e, -⟩ | ⟨k, e, g1, g2⟩
  · cases t <;> simp [Tree.elems, Tree.members] at e hl
  · rw [hl, Option.some.injEq] at e
    subst e
    exact .inr ⟨l', hl', fun m hm => g1 m (hp.symm.subset hm), fun f hf => once_perm hp (g2 f hf)⟩

/-- The order of the members does not matter. -/
theorem C112_order (conv : List Char → Option ℝ) {pre post pre' post' : List Char} (h1 : Ws pre) (h2 : Ws post)
    (h3 : Ws pre') (h4 : Ws post') {t t' : Tree} (ht : t.Valid) (ht' : t'.Valid) {l l' : List (Str × Tree)}
    (hl : t.members = some l) (hl' : t'.members = some l') (hp : l.Perm l') :
    readConfig conv (pre ++ t.text ++ post) = readConfig conv (pre' ++ t'.text ++ post') := by
  refine Option.ext fun c => ?_
  rw [C112_reads conv h1 h2 ht, C112_reads conv h3 h4 ht']
  exact ⟨record_perm hl hl' hp, record_perm hl' hl hp.symm⟩

theorem once_extra {m : Str × Tree} {l : List (Str × Tree)} {name : String} {Q : Tree → Prop}
    (hm : ¬ Says m.1 name.toList) : Once (m :: l) name Q ↔ Once l name Q := by
  constructor
  · intro h
    rcases once_cons (k := m.1) (t := m.2) h with ⟨g, -⟩ | ⟨-, g⟩
    · exact absurd g hm
    · exact g
  · rintro ⟨before, x, after, rfl, h1, h2, h3⟩
    refine ⟨m :: before, x, after, rfl, h1, h2, fun o ho => ?_⟩
    rcases List.mem_cons.1 ho with rfl | ho
    · exact hm
    · exact h3 o ho

/-- A member with another name does not matter, whatever its value is. -/
theorem C112_extra (conv : List Char → Option ℝ) {pre post pre' post' : List Char} (h1 : Ws pre) (h2 : Ws post)
    (h3 : Ws pre') (h4 : Ws post') {t t' : Tree} (ht : t.Valid) (ht' : t'.Valid) {a b : List (Str × Tree)}
    {m : Str × Tree} {key : List Char} (hl : t.members = some (a ++ b)) (hl' : t'.members = some (a ++ m :: b))
    (hk : Says m.1 key) (hn : ∀ name ∈ configNames, name.toList ≠ key) :
    readConfig conv (pre ++ t.text ++ post) = readConfig conv (pre' ++ t'.text ++ post') := by
  refine Option.ext fun c => ?_
  rw [C112_reads conv h1 h2 ht, C112_reads conv h3 h4 ht']
  have hne : ∀ name ∈ configNames, ¬ Says m.1 name.toList := fun name h g => hn name h (says_unique g hk)
  have hmid : ∀ name ∈ configNames, ∀ Q, Once (a ++ m :: b) name Q ↔ Once (a ++ b) name Q := by
    intro name h Q
    have hp := List.perm_middle (a := m) (l₁ := a) (l₂ := b)
    exact Iff.trans ⟨once_perm hp, once_perm hp.symm⟩ (once_extra (hne name h))
  have hmem : ∀ f ∈ [("ticksPerSecond", IsU32 c.xy.ticksPerSecond), ("stepperX", IsStepper conv (c.xy.stepper .x)),
      ("stepperY", IsStepper conv (c.xy.stepper .y)), ("laser", IsLaser c.laser)], f.1 ∈ configNames := by
    intro f hf
    simp only [List.mem_cons, List.not_mem_nil, or_false] at hf
    rcases hf with rfl | rfl | rfl | rfl <;> simp [configNames]
  have hsay : (∀ o ∈ a ++ m :: b, ∃ key, Says o.1 key) ↔ ∀ o ∈ a ++ b, ∃ key, Says o.1 key := by
    constructor
    · intro h o ho
      exact h o (by simp at ho ⊢; tauto)
    · intro h o ho
      have ho : o = m ∨ o ∈ a ++ b := by simp at ho ⊢; tauto
      rcases ho with rfl | ho
      · exact ⟨key, hk⟩
      · exact h o ho
  constructor
  · rintro (⟨k, e, -⟩ | ⟨k, e, g1, g2⟩)
    · cases t <;> simp [Tree.elems, Tree.members] at e hl
    · rw [hl, Option.some.injEq] at e
      subst e
      exact .inr ⟨_, hl', hsay.2 g1, fun f hf => (hmid _ (hmem f hf) _).2 (g2 f hf)⟩
  · rintro (⟨k, e, -⟩ | ⟨k, e, g1, g2⟩)
    · cases t' <;> simp [Tree.elems, Tree.members] at e hl'
    · rw [hl', Option.some.injEq] at e
      subst e
      exact .inr ⟨_, hl, hsay.1 g1, fun f hf => (hmid _ (hmem f hf) _).1 (g2 f hf)⟩

/-! ### The programs -/

/-- The file has a text, which says the configuration. -/
def SaysConfig (conv : List Char → Option ℝ) (files : List Char → Option (List Char)) (name : List Char) (c : Full) :
    Prop :=
  ∃ pre t post, Ws pre ∧ Ws post ∧ t.Valid ∧ files name = some (pre ++ t.text ++ post) ∧ IsConfig conv c t

theorem C112_file (conv : List Char → Option ℝ) (files : List Char → Option (List Char)) (name : List Char) (x : Xy) :
    fileConfig conv files name = some x ↔ ∃ c, SaysConfig conv files name c ∧ c.xy = x := by
  unfold fileConfig
  rw [Option.map_eq_some_iff]
  constructor
  · rintro ⟨c, h, rfl⟩
    obtain ⟨text, h1, h2⟩ := Option.bind_eq_some_iff.1 h
    obtain ⟨pre, t, post, a, b, d, rfl, e⟩ := C112_json conv h2
    exact ⟨c, ⟨pre, t, post, a, b, d, h1, e⟩, rfl⟩
  · rintro ⟨c, ⟨pre, t, post, a, b, d, h1, e⟩, rfl⟩
    exact ⟨c, by rw [h1, Option.bind_some]; exact (C112_reads conv a b d c).2 e, rfl⟩

/-- The programs open a device only if the file given with `--config` says a configuration. -/
theorem C112_device (conv : List Char → Option ℝ) (files : List Char → Option (List Char)) (args : List Cli.Arg)
    (d : Cli.Arg) :
    (∀ run (w : Cli.World (List Svg.XmlEvent)), w.config = fileConfig conv files →
      .device d ∈ (Cli.svgCommand run w args).acts →
      ∃ l : Spec.Cli.Line, l.Valid Spec.Cli.svgKeys ∧ l.args = args ∧ ∃ name c, l.value "config" = some name ∧
        SaysConfig conv files name c) ∧
    (∀ run (w : Cli.World (Option Raster.Image)), w.config = fileConfig conv files →
      .device d ∈ (Cli.rasterCommand run w args).acts →
      ∃ l : Spec.Cli.Line, l.Valid Spec.Cli.rasterKeys ∧ l.args = args ∧ ∃ name c, l.value "config" = some name ∧
        SaysConfig conv files name c) := by
  constructor
  · intro run w hw hd
    obtain ⟨l, h1, h2, rfl, -⟩ := ((C109_silent args).1 run w).2 d hd
    have hfirst := C109_svg_first run w l h1 h2
    refine ⟨l, h1, rfl, ?_⟩
    by_cases hh : 0 < l.helps
    · rw [hfirst.1 hh] at hd; simp at hd
    by_cases hf : l.files = []
    · rw [hfirst.2.1 (by omega) hf] at hd; simp at hd
    cases hc : l.value "config" with
    | none => rw [hfirst.2.2.1 (by omega) hf hc] at hd; simp at hd
    | some name =>
      cases hcfg : w.config name with
      | none => rw [hfirst.2.2.2 name (by omega) hf hc hcfg] at hd; simp at hd
      | some cfg =>
        rw [hw, C112_file] at hcfg
        obtain ⟨c, hs, -⟩ := hcfg
        exact ⟨name, c, rfl, hs⟩
  · intro run w hw hd
    obtain ⟨l, h1, h2, rfl, -⟩ := ((C109_silent args).2 run w).2 d hd
    have hfirst := C109_raster_first run w l h1 h2
    refine ⟨l, h1, rfl, ?_⟩
    by_cases hh : 0 < l.helps
    · rw [hfirst.1 hh] at hd; simp at hd
    by_cases hf : l.files = []
    · rw [hfirst.2.1 (by omega) hf] at hd; simp at hd
    cases hc : l.value "config" with
    | none => rw [hfirst.2.2.1 (by omega) hf hc] at hd; simp at hd
    | some name =>
      cases hcfg : w.config name with
      | none => rw [hfirst.2.2.2 name (by omega) hf hc hcfg] at hd; simp at hd
      | some cfg =>
        rw [hw, C112_file] at hcfg
        obtain ⟨c, hs, -⟩ := hcfg
        exact ⟨name, c, rfl, hs⟩

/-! ### Files as they are usually written -/

/-- A string without escapes. -/
def plainStr (s : String) : Str := s.toList.map .plain

theorem says_plain (s : String) : Says (plainStr s) s.toList := by
  unfold plainStr
  induction s.toList with
  | nil => exact .nil
  | cons c l ih => exact .plain c ih

/-- An object with the fields in order, without escapes and without other members, is a record. -/
theorem C112_plain {fs : List (String × (Tree → Prop))} {ts : List Tree} (hn : (fs.map Prod.fst).Nodup)
    (h : List.Forall₂ (fun f x => f.2 x) fs ts) {t : Tree}
    (ht : t.members = some (List.zipWith (fun f x => (plainStr f.1, x)) fs ts)) : IsRecord fs t := by
  refine .inr ⟨_, ht, ?_, ?_⟩
  · clear ht hn
    induction h with
    | nil => simp
    | cons _ _ ih =>
      intro m hm
      rw [List.zipWith_cons_cons] at hm
      rcases List.mem_cons.1 hm with rfl | hm
      · exact ⟨_, says_plain _⟩
      · exact ih m hm
  · clear ht
    induction h with
    | nil => simp
    | @cons f x fs ts hf hr ih =>
      rw [List.map_cons, List.nodup_cons] at hn
      have hother : ∀ name, name ∉ fs.map Prod.fst →
          ∀ o ∈ List.zipWith (fun f x => (plainStr f.1, x)) fs ts, ¬ Says o.1 name.toList := by
        intro name hname o ho hs
        obtain ⟨j, hj⟩ := List.mem_iff_getElem?.1 ho
        rw [List.getElem?_zipWith_eq_some] at hj
        obtain ⟨g, y, hg, -, rfl⟩ := hj
        refine hname ?_
        rw [String.toList_inj.1 (says_unique hs (says_plain g.1))]
        exact List.mem_map_of_mem (List.mem_iff_getElem?.2 ⟨j, hg⟩)
      intro g hg
      rw [List.zipWith_cons_cons]
      rcases List.mem_cons.1 hg with rfl | hg
      · exact ⟨[], _, _, rfl, says_plain _, hf, hother _ hn.1⟩
      · obtain ⟨before, m, after, e, h1, h2, h3⟩ := ih hn.2 g hg
        refine ⟨(plainStr f.1, x) :: before, m, after, by rw [e]; rfl, h1, h2, fun o ho => ?_⟩
        rcases List.mem_cons.1 ho with rfl | ho
        · intro hs
          refine hn.1 ?_
          rw [← String.toList_inj.1 (says_unique hs (says_plain f.1))]
          exact List.mem_map_of_mem hg
        · exact h3 o ho

/-! ### Examples -/

/-- A number in digits. -/
def digitsTree (d : Digits) : Tree := .num ⟨.none, d, none, none⟩

/-- A stepper of the shipped file. -/
def shippedStepper : Tree :=
  .objectOf (.more "\n\t".toList (plainStr "stepsPerMillimeter") [] [' '] (digitsTree [1, 9, 6, 6, 0, 8, 0]) []
    (.more "\n\t".toList (plainStr "maxVelocity") [] [' '] (digitsTree [5, 0]) []
    (.one "\n\t".toList (plainStr "maxAcceleration") [] [' '] (digitsTree [5, 0, 0]) "\n    ".toList)))

/-- The shipped file /repo/xystepper_config.json. -/
def shippedTree : Tree :=
  .objectOf (.more "\n    ".toList (plainStr "ticksPerSecond") [' '] [' '] (digitsTree [1, 2, 8]) []
    (.more "\n    ".toList (plainStr "stepperX") [] "\n    ".toList shippedStepper []
    (.more "\n    ".toList (plainStr "stepperY") [] "\n    ".toList shippedStepper []
    (.one "\n    ".toList (plainStr "laser") [] "\n    ".toList
      (.objectOf (.more "\n\t".toList (plainStr "maxIntensity") [] [' '] (digitsTree [2, 5, 5]) []
        (.more "\n\t".toList (plainStr "pwmPeriod") [] [' '] (digitsTree [2, 5, 6]) []
        (.one "\n\t".toList (plainStr "alignmentIntensity") [] [' '] (digitsTree [5]) "\n    ".toList)))) "\n\n".toList))))

theorem shipped_text : "{\n    \"ticksPerSecond\" : 128,\n    \"stepperX\":\n    {\n\t\"stepsPerMillimeter\": 1966080,\n\t\"maxVelocity\": 50,\n\t\"maxAcceleration\": 500\n    },\n    \"stepperY\":\n    {\n\t\"stepsPerMillimeter\": 1966080,\n\t\"maxVelocity\": 50,\n\t\"maxAcceleration\": 500\n    },\n    \"laser\":\n    {\n\t\"maxIntensity\": 255,\n\t\"pwmPeriod\": 256,\n\t\"alignmentIntensity\": 5\n    }\n\n}\n\n".toList =
    [] ++ shippedTree.text ++ ['\n', '\n'] := by
  decide +kernel

theorem plainStr_valid {s : String} (h : ∀ c ∈ s.toList, 32 ≤ c.toNat ∧ c ≠ '"' ∧ c ≠ '\\') : (plainStr s).Valid := by
  intro m hm
  obtain ⟨c, hc, rfl⟩ := List.mem_map.1 hm
  exact h c hc

theorem digitsTree_valid {d : Digits} (h : d ≠ []) (h0 : d.head? = some 0 → d = [0]) : (digitsTree d).Valid := by
  rw [digitsTree, Tree.Valid]
  exact ⟨by simp, h, h0, by simp, by simp⟩

theorem shippedStepper_valid : shippedStepper.Valid := by
  simp only [shippedStepper, Tree.Valid, Members.Valid]
  refine ⟨?_, ?_, ?_, ?_, digitsTree_valid ?_ ?_, ?_, ?_, ?_, ?_, ?_, digitsTree_valid ?_ ?_, ?_,
    ?_, ?_, ?_, ?_, digitsTree_valid ?_ ?_, ?_⟩
  all_goals first
    | exact plainStr_valid (by decide +kernel)
    | (rw [ws_iff]; decide +kernel)
    | decide +kernel

theorem shipped_valid : shippedTree.Valid := by
  simp only [shippedTree, Tree.Valid, Members.Valid]
  refine ⟨?_, ?_, ?_, ?_, digitsTree_valid ?_ ?_, ?_, ?_, ?_, ?_, ?_, shippedStepper_valid, ?_,
    ?_, ?_, ?_, ?_, shippedStepper_valid, ?_, ?_, ?_, ?_, ?_, ⟨?_, ?_, ?_, ?_, digitsTree_valid ?_ ?_, ?_,
      ?_, ?_, ?_, ?_, digitsTree_valid ?_ ?_, ?_, ?_, ?_, ?_, ?_, digitsTree_valid ?_ ?_, ?_⟩, ?_⟩
  all_goals first
    | exact plainStr_valid (by decide +kernel)
    | (rw [ws_iff]; decide +kernel)
    | decide +kernel

theorem shipped_config (conv : List Char → Option ℝ) {a v b : ℝ} (ha : conv "1966080".toList = some a)
    (hv : conv "50".toList = some v) (hb : conv "500".toList = some b) :
    IsConfig conv ⟨⟨128, fun _ => ⟨a, v, b⟩⟩, ⟨255, 256, 5⟩⟩ shippedTree := by
  have hu : ∀ (k : ℕ) (d : Digits), d.val = k → k < 2 ^ 32 → IsU32 k (digitsTree d) := fun k d h h' => ⟨d, rfl, h, h'⟩
  have hf : ∀ (d : Digits) (x : ℝ), conv (Num.text ⟨.none, d, none, none⟩) = some x → IsFloat conv x (digitsTree d) :=
    fun d x h => ⟨_, rfl, h⟩
  have hs : IsStepper conv ⟨a, v, b⟩ shippedStepper :=
    C112_plain (by simp) (.cons (hf [1, 9, 6, 6, 0, 8, 0] _ ha) (.cons (hf [5, 0] _ hv) (.cons (hf [5, 0, 0] _ hb) .nil))) rfl
  refine C112_plain (by simp) (.cons (hu _ _ rfl (by decide)) (.cons hs (.cons hs (.cons ?_ .nil)))) rfl
  exact C112_plain (by simp) (.cons (hu _ _ rfl (by decide)) (.cons (hu _ _ rfl (by decide))
    (.cons (hu _ _ rfl (by decide)) .nil))) rfl

/-- What the shipped file says. -/
example (conv : List Char → Option ℝ) {a v b : ℝ} (ha : conv "1966080".toList = some a)
    (hv : conv "50".toList = some v) (hb : conv "500".toList = some b) :
    readConfig conv "{\n    \"ticksPerSecond\" : 128,\n    \"stepperX\":\n    {\n\t\"stepsPerMillimeter\": 1966080,\n\t\"maxVelocity\": 50,\n\t\"maxAcceleration\": 500\n    },\n    \"stepperY\":\n    {\n\t\"stepsPerMillimeter\": 1966080,\n\t\"maxVelocity\": 50,\n\t\"maxAcceleration\": 500\n    },\n    \"laser\":\n    {\n\t\"maxIntensity\": 255,\n\t\"pwmPeriod\": 256,\n\t\"alignmentIntensity\": 5\n    }\n\n}\n\n".toList = some ⟨⟨128, fun _ => ⟨a, v, b⟩⟩, ⟨255, 256, 5⟩⟩ := by
  rw [shipped_text]
  exact (C112_reads conv (by simp [Ws]) (by simp [Ws]) shipped_valid _).2 (shipped_config conv ha hv hb)

/-- Some text of each kind: what is accepted is seen from the numbers of ticks and of the laser. -/
def seen (text : String) : Option (ℕ × ℕ × ℕ × ℕ) :=
  (readConfig (fun _ => some 0) text.toList).map
    fun c => (c.xy.ticksPerSecond, c.laser.maxIntensity, c.laser.pwmPeriod, c.laser.alignmentIntensity)

/-- Another order, arrays instead of objects, escapes in a key, an exponent, and a member that is ignored. -/
example : seen "{\"laser\":[255,256,5], \"stepperY\":[50,50,50],\"note\":[null,{\"a\":\"\\\"\\ud83d\"},-0.5e+7],\"\\u0073tepperX\":[1966080,5e1,500],\"ticksPerSecond\":128}\n" =
    some (128, 255, 256, 5) := by
  decide +kernel

/-- Refused: the laser is missing; the ticks are there twice; the ticks are not written in digits or are too large; three
entries are needed; a comma at the end; something after the value. -/
example : ["{\"ticksPerSecond\":1,\"stepperX\":[50,50,50],\"stepperY\":[50,50,50]}",
    "{\"ticksPerSecond\":1,\"ticksPerSecond\":1,\"stepperX\":[50,50,50],\"stepperY\":[50,50,50],\"laser\":[1,2,3]}",
    "[128.0,[50,50,50],[50,50,50],[1,2,3]]", "[-0,[50,50,50],[50,50,50],[1,2,3]]",
    "[4294967296,[50,50,50],[50,50,50],[1,2,3]]", "[\"1\",[50,50,50],[50,50,50],[1,2,3]]",
    "[1,[50,50,50],[50,50,50],[1,2]]", "[1,[50,50,50],[50,50,50],[1,2,3],]",
    "[1,[50,50,50],[50,50,50],[1,2,3]] x"].map seen = List.replicate 9 none ∧
    seen "[4294967295,[50,50,50],[50,50,50],[1,2,3]]" = some (4294967295, 1, 2, 3) := by
  constructor <;> decide +kernel

/-- An object without members. -/
example (conv : List Char → Option ℝ) : readConfig conv (['{'] ++ " }".toList) = none :=
  C112_missing conv (pre := []) (post := []) (t := .object [' ']) (by simp [Ws]) (by simp [Ws])
    (by simp [Tree.Valid, Ws]) rfl (name := "laser") (by decide) (by simp)

/-- The first file is not a configuration: no device is opened.  There is no second file. -/
example (conv : List Char → Option ℝ) (port : Control.Port) (run) :
    let files := fun name => if name = "a".toList then some "{}".toList else none
    let w : Cli.World (List Svg.XmlEvent) := ⟨fileConfig conv files, fun _ => some [], fun _ => some port⟩
    Cli.svgCommand run w ["-ca".toList, "-dtty".toList, "f".toList] = ⟨[.config "a".toList], .message .badConfig⟩ ∧
    Cli.svgCommand run w ["-cc".toList, "-dtty".toList, "f".toList] = ⟨[.config "c".toList], .message .badConfig⟩ := by
  refine ⟨?_, ?_⟩ <;> rfl

end StepperPaths.Props
