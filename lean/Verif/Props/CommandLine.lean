import Verif.Proof.CommandPrograms

/-! # C109: the command lines of `svg_path` and `image_raster` -/

namespace StepperPaths.Props
open StepperPaths.Cli Spec.Cli Svg Control Config Program Raster

/-! ### Reading the arguments -/

theorem vals_settings (items : List Item) :
    (items.flatMap itemVals).filterMap (fun v => v.2.map fun a => ((⟨v.1.short, v.1.long⟩ : Key), a)) =
      items.flatMap Item.settings := by
  rw [List.filterMap_flatMap]
  congr 1
  funext i
  cases i <;> simp [itemVals, Item.settings, optOf, List.filterMap_append]

theorem vals_helps (items : List Item) :
    ((items.flatMap itemVals).filter fun v => v.2.isNone).length = (items.map Item.helps).sum := by
  induction items with
  | nil => rfl
  | cons i items ih =>
    rw [List.flatMap_cons, List.filter_append, List.length_append, ih, List.map_cons, List.sum_cons]
    congr 1
    cases i <;> simp [itemVals, Item.helps]

/-- C109: an argument list can be read as a command line in one way at most: all command lines with these
arguments set the same options, ask for help equally often and name the same files. -/
theorem C109_unique (l l' : Line) (h : l.Valid svgKeys ∧ l'.Valid svgKeys ∨ l.Valid rasterKeys ∧ l'.Valid rasterKeys)
    (ha : l.args = l'.args) : l.settings = l'.settings ∧ l.helps = l'.helps ∧ l.files = l'.files := by
  have hm : lineMatches l = lineMatches l' := by
    rcases h with ⟨h, h'⟩ | ⟨h, h'⟩
    · have := parseLoop_line svg_table l h
      rw [ha, parseLoop_line svg_table l' h'] at this
      exact (Option.some.inj this).symm
    · have := parseLoop_line raster_table l h
      rw [ha, parseLoop_line raster_table l' h'] at this
      exact (Option.some.inj this).symm
  have hv : l.items.flatMap itemVals = l'.items.flatMap itemVals := congrArg Matches.vals hm
  refine ⟨?_, ?_, congrArg Matches.free hm⟩
  · rw [Line.settings, Line.settings, ← vals_settings, hv, vals_settings]
  · rw [Line.helps, Line.helps, ← vals_helps, hv, vals_helps]

/-- C109: the crate's parser accepts an argument list if and only if it is a command line of known
options, none of them given twice; otherwise both programs end with a panic, before anything is opened. -/
theorem C109_refused (args : List Spec.Cli.Arg) :
    ((∀ l : Line, l.Valid svgKeys → l.Once → l.args ≠ args) →
      ∀ run w, svgCommand run w args = ⟨[], .failed⟩) ∧
    ((∀ l : Line, l.Valid rasterKeys → l.Once → l.args ≠ args) →
      ∀ run w, rasterCommand run w args = ⟨[], .failed⟩) := by
  constructor
  · intro h run w
    unfold svgCommand
    cases hg : getopts svgOpts args with
    | none => rfl
    | some m =>
      obtain ⟨l, h1, h2, h3, -⟩ := getopts_only svg_table hg
      exact absurd h3 (h l h1 h2)
  · intro h run w
    unfold rasterCommand
    cases hg : getopts rasterOpts args with
    | none => rfl
    | some m =>
      obtain ⟨l, h1, h2, h3, -⟩ := getopts_only raster_table hg
      exact absurd h3 (h l h1 h2)

theorem str_line (l : Line) (word : String) (h2 : 2 ≤ word.toList.length := by decide)
    (hh : word.toList ≠ ['h', 'e', 'l', 'p'] := by decide) : (lineMatches l).str word = l.value word :=
  line_str l word h2 hh

theorem files_line (l : Line) : (lineMatches l).free = l.files := rfl

/-! ### svg_path -/

/-- C109: what `svg_path` does before it looks at the options with numbers: help, no file, no
configuration.  Nothing is opened in these cases, except the configuration. -/
theorem C109_svg_first (run) (w : World (List XmlEvent)) (l : Line) (hl : l.Valid svgKeys) (ho : l.Once) :
    (0 < l.helps → svgCommand run w l.args = ⟨[], .message .usage⟩) ∧
    (l.helps = 0 → l.files = [] → svgCommand run w l.args = ⟨[], .message .noFile⟩) ∧
    (l.helps = 0 → l.files ≠ [] → l.value "config" = none → svgCommand run w l.args = ⟨[], .message .noConfig⟩) ∧
    ∀ name, l.helps = 0 → l.files ≠ [] → l.value "config" = some name → w.config name = none →
      svgCommand run w l.args = ⟨[.config name], .message .badConfig⟩ := by
  have hp := line_present svg_table l hl
  have hn : l.helps = 0 → ¬ (lineMatches l).present "h" = true := fun h h' => by have := hp.1 h'; omega
  unfold svgCommand
  simp only [getopts_line svg_table l hl ho, str_line l "config", str_line l "device", str_line l "layer", files_line]
  refine ⟨fun h => by rw [if_pos (hp.2 h)], fun h h' => ?_, fun h h' h2 => ?_, fun name h h' h2 h3 => ?_⟩
  · rw [if_neg (hn h), h']
  · rw [if_neg (hn h), h2]
    cases hf : l.files with
    | nil => exact absurd hf h'
    | cons a r => rfl
  · rw [if_neg (hn h), h2]
    cases hf : l.files with
    | nil => exact absurd hf h'
    | cons a r => simp [h3]

/-- What `svg_path` does when the arguments and the configuration are in order. -/
def svgRest (run : Xy → SvgNumbers → Option Cli.Arg → List XmlEvent → Option Port → Option (Option Port))
    (w : World (List XmlEvent)) (cfg : Xy) (o : SvgNumbers) (layer dev : Option Cli.Arg) (file : Cli.Arg)
    (opened : List Cli.Act) : Run :=
  match dev.map w.device with
  | some none => ⟨opened, .failed⟩
  | port =>
    match w.picture file with
    | none => ⟨opened ++ [.picture file], .failed⟩
    | some doc =>
      match run cfg o layer doc (port.bind id) with
      | none => ⟨opened ++ [.picture file], .failed⟩
      | some p => ⟨opened ++ [.picture file], .done p⟩

theorem svgCommand_line (run) (w : World (List XmlEvent)) (l : Line) (hl : l.Valid svgKeys) (ho : l.Once)
    (hh : l.helps = 0) (file : Cli.Arg) (hf : l.files.head? = some file) (name : Cli.Arg)
    (hc : l.value "config" = some name) (cfg : Xy) (hcfg : w.config name = some cfg)
    (htps : cfg.ticksPerSecond < 2 ^ 31) :
    svgCommand run w l.args = match svgNumbers (lineMatches l) with
      | .error msg => ⟨[.config name], .message msg⟩
      | .ok o => svgRest run w cfg o (l.value "layer") (l.value "device") file
        (.config name :: (l.value "device").toList.map .device) := by
  have hp := line_present svg_table l hl
  have hn : ¬ (lineMatches l).present "h" = true := fun h' => by have := hp.1 h'; omega
  obtain ⟨r, hr⟩ : ∃ r, l.files = file :: r := by
    cases h : l.files with
    | nil => simp [h] at hf
    | cons a r =>
      rw [h] at hf
      exact ⟨r, by rw [Option.some.inj hf]⟩
  unfold svgCommand svgRest
  simp only [getopts_line svg_table l hl ho, str_line l "config", str_line l "device", str_line l "layer", files_line]
  rw [if_neg hn, hc, hr]
  simp only [hcfg]
  rw [if_neg (by norm_num at htps; omega)]
  rfl

/-- C109: a wrong number, or one out of its range, ends `svg_path` with a message; only the
configuration has been opened. -/
theorem C109_svg_numbers (run) (w : World (List XmlEvent)) (l : Line) (hl : l.Valid svgKeys) (ho : l.Once)
    (hh : l.helps = 0) (file : Cli.Arg) (hf : l.files.head? = some file) (name : Cli.Arg)
    (hc : l.value "config" = some name) (cfg : Xy) (hcfg : w.config name = some cfg)
    (htps : cfg.ticksPerSecond < 2 ^ 31) :
    (¬ SvgGood l → ∃ msg : Message, msg.AboutNumber ∧ svgCommand run w l.args = ⟨[.config name], .message msg⟩) ∧
    (SvgGood l → ∀ msg, (svgCommand run w l.args).out ≠ .message msg) := by
  rw [svgCommand_line run w l hl ho hh file hf name hc cfg hcfg htps]
  constructor
  · intro h
    cases hn : svgNumbers (lineMatches l) with
    | ok o => exact absurd (svgNumbers_ok.1 ⟨o, hn⟩) h
    | error msg => exact ⟨msg, svgNumbers_error hn, rfl⟩
  · intro h msg
    obtain ⟨o, hn⟩ := svgNumbers_ok.2 h
    rw [hn]
    simp only [svgRest]
    split
    · simp
    · split
      · simp
      · split <;> simp

/-- C109: with options in order `svg_path` opens the configuration, the device and then the picture, and runs
the program (of which `C85`, `C95` and others speak) with the numbers that are written on its command line. -/
theorem C109_svg_program (e : Draw.Env) (w : World (List XmlEvent)) (l : Line) (hl : l.Valid svgKeys) (ho : l.Once)
    (hh : l.helps = 0) (file : Cli.Arg) (hf : l.files.head? = some file) (name : Cli.Arg)
    (hc : l.value "config" = some name) (cfg : Xy) (hcfg : w.config name = some cfg)
    (htps : cfg.ticksPerSecond < 2 ^ 31)
    (vMax aMax speed : Option ℚ) (n p : Option ℤ) (h1 : Float (l.value "v-max") vMax)
    (h2 : Float (l.value "a-max") aMax) (h3 : Float (l.value "draw-speed") speed) (h4 : Integer (l.value "repeat") n)
    (h5 : Integer (l.value "intensity") p) (hn : ∀ k ∈ n, 1 ≤ k) (hp : ∀ k ∈ p, 0 ≤ k ∧ k ≤ 100)
    (doc : List XmlEvent) (hdoc : w.picture file = some doc) :
    let result := svgProgram cfg ⟨vMax.map (↑), aMax.map (↑), speed.map (↑), n, p⟩ (l.value "layer") e doc
    (∀ dev port, l.value "device" = some dev → w.device dev = some port →
      (∀ q, result port = some (some q) →
        svgCommand (svgRun e) w l.args = ⟨[.config name, .device dev, .picture file], .done (some q)⟩) ∧
      (result port = none →
        svgCommand (svgRun e) w l.args = ⟨[.config name, .device dev, .picture file], .failed⟩) ∧
      result port ≠ some none) ∧
    (l.value "device" = none → ∀ port, result port ≠ none →
      svgCommand (svgRun e) w l.args = ⟨[.config name, .picture file], .done none⟩) := by
  intro result
  obtain ⟨o, e1, e2⟩ := svgNumbers_value h1 h2 h3 h4 h5 hn hp
  rw [svgCommand_line _ w l hl ho hh file hf name hc cfg hcfg htps, e1]
  have hn' : 1 ≤ n.getD 1 := by
    cases n with
    | none => simp
    | some k => exact hn k rfl
  have hp' : 0 ≤ p.getD 5 ∧ p.getD 5 ≤ 100 := by
    cases p with
    | none => simp
    | some k => exact hp k rfl
  have key := fun port => svgRun_port (e := e) (cfg := cfg) e2 hn' hp' (l.value "layer") doc port
  refine ⟨fun dev port hd hport => ?_, fun hd port hr => ?_⟩
  · simp only [hd, svgRest, Option.map_some, hport, hdoc, Option.bind_some, id, key, Option.toList_some, List.map_cons,
      List.map_nil, List.cons_append, List.nil_append]
    refine ⟨fun q hq => ?_, fun hq => ?_, fun hq => ?_⟩
    · rw [show svgProgram _ _ _ _ _ _ = some (some q) from hq]
    · rw [show svgProgram _ _ _ _ _ _ = none from hq]
    · have := svgRun_dry ((key port).trans hq)
      obtain ⟨-, q, hq⟩ := this
      simp at hq
  · simp only [hd, svgRest, Option.map_none, hdoc, Option.bind_none, Option.toList_none, List.map_nil, List.cons_append,
      List.nil_append]
    cases hq : result port with
    | none => exact absurd hq hr
    | some q => rw [(svgRun_dry ((key port).trans hq)).1]

/-- C109: a device that cannot be opened and a picture that cannot be opened end the program with a panic; the
picture is not opened before the device. -/
theorem C109_svg_files (run) (w : World (List XmlEvent)) (l : Line) (hl : l.Valid svgKeys) (ho : l.Once)
    (hh : l.helps = 0) (file : Cli.Arg) (hf : l.files.head? = some file) (name : Cli.Arg)
    (hc : l.value "config" = some name) (cfg : Xy) (hcfg : w.config name = some cfg)
    (htps : cfg.ticksPerSecond < 2 ^ 31) (hg : SvgGood l) :
    (∀ dev, l.value "device" = some dev → w.device dev = none →
      svgCommand run w l.args = ⟨[.config name, .device dev], .failed⟩) ∧
    (w.picture file = none → (svgCommand run w l.args).out = .failed) := by
  obtain ⟨o, hn⟩ := svgNumbers_ok.2 hg
  rw [svgCommand_line run w l hl ho hh file hf name hc cfg hcfg htps, hn]
  refine ⟨fun dev hd hw => ?_, fun hw => ?_⟩
  · simp [svgRest, hd, hw]
  · simp only [svgRest, hw]
    split <;> rfl

/-! ### image_raster -/

/-- C109: the same for `image_raster`. -/
theorem C109_raster_first (run) (w : World (Option Image)) (l : Line) (hl : l.Valid rasterKeys) (ho : l.Once) :
    (0 < l.helps → rasterCommand run w l.args = ⟨[], .message .usage⟩) ∧
    (l.helps = 0 → l.files = [] → rasterCommand run w l.args = ⟨[], .message .noFile⟩) ∧
    (l.helps = 0 → l.files ≠ [] → l.value "config" = none → rasterCommand run w l.args = ⟨[], .message .noConfig⟩) ∧
    ∀ name, l.helps = 0 → l.files ≠ [] → l.value "config" = some name → w.config name = none →
      rasterCommand run w l.args = ⟨[.config name], .message .badConfig⟩ := by
  have hp := line_present raster_table l hl
  have hn : l.helps = 0 → ¬ (lineMatches l).present "h" = true := fun h h' => by have := hp.1 h'; omega
  unfold rasterCommand
  simp only [getopts_line raster_table l hl ho, str_line l "config", str_line l "device", files_line]
  refine ⟨fun h => by rw [if_pos (hp.2 h)], fun h h' => ?_, fun h h' h2 => ?_, fun name h h' h2 h3 => ?_⟩
  · rw [if_neg (hn h), h']
  · rw [if_neg (hn h), h2]
    cases hf : l.files with
    | nil => exact absurd hf h'
    | cons a r => rfl
  · rw [if_neg (hn h), h2]
    cases hf : l.files with
    | nil => exact absurd hf h'
    | cons a r => simp [h3]

/-- What `image_raster` does when the arguments and the configuration are in order. -/
def rasterRest (run : Xy → RasterNumbers → Image → Option Port → Option (Option Port))
    (w : World (Option Image)) (cfg : Xy) (o : RasterNumbers) (dev : Option Cli.Arg) (file : Cli.Arg)
    (opened : List Cli.Act) : Run :=
  match w.picture file with
  | none => ⟨opened, .message .noPicture⟩
  | some none => ⟨opened, .message .badPicture⟩
  | some (some img) =>
    let opened := opened ++ dev.toList.map .device
    match dev.map w.device with
    | some none => ⟨opened, .failed⟩
    | port =>
      match run cfg o img (port.bind id) with
      | none => ⟨opened, .failed⟩
      | some p => ⟨opened, .done p⟩

theorem rasterCommand_line (run) (w : World (Option Image)) (l : Line) (hl : l.Valid rasterKeys) (ho : l.Once)
    (hh : l.helps = 0) (file : Cli.Arg) (hf : l.files.head? = some file) (name : Cli.Arg)
    (hc : l.value "config" = some name) (cfg : Xy) (hcfg : w.config name = some cfg)
    (htps : cfg.ticksPerSecond < 2 ^ 31) :
    rasterCommand run w l.args = match rasterNumbers (lineMatches l) with
      | .error msg => ⟨[.config name], .message msg⟩
      | .ok o => rasterRest run w cfg o (l.value "device") file [.config name, .picture file] := by
  have hp := line_present raster_table l hl
  have hn : ¬ (lineMatches l).present "h" = true := fun h' => by have := hp.1 h'; omega
  obtain ⟨r, hr⟩ : ∃ r, l.files = file :: r := by
    cases h : l.files with
    | nil => simp [h] at hf
    | cons a r =>
      rw [h] at hf
      exact ⟨r, by rw [Option.some.inj hf]⟩
  unfold rasterCommand rasterRest
  simp only [getopts_line raster_table l hl ho, str_line l "config", str_line l "device", files_line]
  rw [if_neg hn, hc, hr]
  simp only [hcfg]
  rw [if_neg (by norm_num at htps; omega)]
  rfl

/-- C109: a wrong number, or one out of its range, ends `image_raster` with a message; only the
configuration has been opened. -/
theorem C109_raster_numbers (run) (w : World (Option Image)) (l : Line) (hl : l.Valid rasterKeys) (ho : l.Once)
    (hh : l.helps = 0) (file : Cli.Arg) (hf : l.files.head? = some file) (name : Cli.Arg)
    (hc : l.value "config" = some name) (cfg : Xy) (hcfg : w.config name = some cfg)
    (htps : cfg.ticksPerSecond < 2 ^ 31) :
    (¬ RasterGood l → ∃ msg : Message, msg.AboutNumber ∧ rasterCommand run w l.args = ⟨[.config name], .message msg⟩) ∧
    (RasterGood l → ∀ msg, (rasterCommand run w l.args).out = .message msg →
      w.picture file = none ∧ msg = .noPicture ∨ w.picture file = some none ∧ msg = .badPicture) := by
  rw [rasterCommand_line run w l hl ho hh file hf name hc cfg hcfg htps]
  constructor
  · intro h
    cases hn : rasterNumbers (lineMatches l) with
    | ok o => exact absurd (rasterNumbers_ok.1 ⟨o, hn⟩) h
    | error msg => exact ⟨msg, rasterNumbers_error hn, rfl⟩
  · intro h msg
    obtain ⟨o, hn⟩ := rasterNumbers_ok.2 h
    rw [hn]
    simp only [rasterRest]
    split
    · rename_i hw
      intro hm
      exact .inl ⟨hw, by simpa using hm.symm⟩
    · rename_i hw
      intro hm
      exact .inr ⟨hw, by simpa using hm.symm⟩
    · split
      · simp
      · split <;> simp

/-- C109: with options in order `image_raster` opens the configuration, the picture and then the device, and runs
the program (of which `C86` and others speak) with the numbers that are written on its command line. -/
theorem C109_raster_program (w : World (Option Image)) (l : Line) (hl : l.Valid rasterKeys) (ho : l.Once)
    (hh : l.helps = 0) (file : Cli.Arg) (hf : l.files.head? = some file) (name : Cli.Arg)
    (hc : l.value "config" = some name) (cfg : Xy) (hcfg : w.config name = some cfg)
    (htps : cfg.ticksPerSecond < 2 ^ 31)
    (vMax aMax speed width height spot : Option ℚ) (p : Option ℤ) (h1 : Float (l.value "v-max") vMax)
    (h2 : Float (l.value "a-max") aMax) (h3 : Float (l.value "draw-speed") speed)
    (h5 : Integer (l.value "intensity") p) (hp : ∀ k ∈ p, 0 ≤ k ∧ k ≤ 100) (h6 : Float (l.value "width") width)
    (h7 : Float (l.value "height") height) (h8 : Float (l.value "spot-diam") spot)
    (img : Image) (himg : w.picture file = some (some img)) :
    let result := rasterMain cfg
      ⟨vMax.map (↑), aMax.map (↑), speed.map (↑), p, width.map (↑), height.map (↑), spot.map (↑)⟩ img
    (∀ dev port, l.value "device" = some dev → w.device dev = some port →
      (∀ q, result port = some (some q) →
        rasterCommand rasterRun w l.args = ⟨[.config name, .picture file, .device dev], .done (some q)⟩) ∧
      (result port = none →
        rasterCommand rasterRun w l.args = ⟨[.config name, .picture file, .device dev], .failed⟩) ∧
      result port ≠ some none) ∧
    (l.value "device" = none → ∀ port, result port ≠ none →
      rasterCommand rasterRun w l.args = ⟨[.config name, .picture file], .done none⟩) := by
  intro result
  obtain ⟨o, e1, e2⟩ := rasterNumbers_value h1 h2 h3 h5 hp h6 h7 h8
  rw [rasterCommand_line _ w l hl ho hh file hf name hc cfg hcfg htps, e1]
  have hp' : 0 ≤ p.getD 5 ∧ p.getD 5 ≤ 100 := by
    cases p with
    | none => simp
    | some k => exact hp k rfl
  have key := fun port => rasterRun_port (cfg := cfg) e2 hp' img port
  refine ⟨fun dev port hd hport => ?_, fun hd port hr => ?_⟩
  · simp only [hd, rasterRest, Option.map_some, hport, himg, Option.bind_some, id, key, Option.toList_some, List.map_cons,
      List.map_nil, List.cons_append, List.nil_append]
    refine ⟨fun q hq => ?_, fun hq => ?_, fun hq => ?_⟩
    · rw [show rasterMain _ _ _ _ = some (some q) from hq]
    · rw [show rasterMain _ _ _ _ = none from hq]
    · have := rasterRun_dry ((key port).trans hq)
      obtain ⟨-, q, hq⟩ := this
      simp at hq
  · simp only [hd, rasterRest, Option.map_none, himg, Option.bind_none, Option.toList_none, List.map_nil, List.append_nil]
    cases hq : result port with
    | none => exact absurd hq hr
    | some q => rw [(rasterRun_dry ((key port).trans hq)).1]

/-! ### Safety -/

/-- C109: with `2^31` ticks per second or more in the configuration, both programs panic before they open anything else. -/
theorem C109_ticks (l : Line) (ho : l.Once) (hh : l.helps = 0) (hf : l.files ≠ []) (name : Cli.Arg)
    (hc : l.value "config" = some name) (cfg : Xy) (htps : 2 ^ 31 ≤ cfg.ticksPerSecond) :
    (l.Valid svgKeys → ∀ run w, w.config name = some cfg → svgCommand run w l.args = ⟨[.config name], .failed⟩) ∧
    (l.Valid rasterKeys → ∀ run w, w.config name = some cfg → rasterCommand run w l.args = ⟨[.config name], .failed⟩) := by
  obtain ⟨file, r, hr⟩ := List.exists_cons_of_ne_nil hf
  constructor
  · intro hl run w hcfg
    have hp := line_present svg_table l hl
    have hn : ¬ (lineMatches l).present "h" = true := fun h' => by have := hp.1 h'; omega
    unfold svgCommand
    simp only [getopts_line svg_table l hl ho, str_line l "config", str_line l "device", str_line l "layer", files_line]
    rw [if_neg hn, hc, hr]
    simp only [hcfg]
    rw [if_pos (by norm_num at htps; omega)]
  · intro hl run w hcfg
    have hp := line_present raster_table l hl
    have hn : ¬ (lineMatches l).present "h" = true := fun h' => by have := hp.1 h'; omega
    unfold rasterCommand
    simp only [getopts_line raster_table l hl ho, str_line l "config", str_line l "device", files_line]
    rw [if_neg hn, hc, hr]
    simp only [hcfg]
    rw [if_pos (by norm_num at htps; omega)]

/-- C109: whatever the arguments, the files and the rest of the programs are: a program that ends with a message has not
opened a device, and one that ends without a message has opened those devices only that are named on the command line. -/
theorem C109_silent (args : List Cli.Arg) :
    (∀ run w, (∀ msg, (svgCommand run w args).out = .message msg → ∀ d, .device d ∉ (svgCommand run w args).acts) ∧
      ∀ d, .device d ∈ (svgCommand run w args).acts → ∃ l : Line, l.Valid svgKeys ∧ l.Once ∧ l.args = args ∧
        l.value "device" = some d) ∧
    (∀ run w, (∀ msg, (rasterCommand run w args).out = .message msg → ∀ d, .device d ∉ (rasterCommand run w args).acts) ∧
      ∀ d, .device d ∈ (rasterCommand run w args).acts → ∃ l : Line, l.Valid rasterKeys ∧ l.Once ∧ l.args = args ∧
        l.value "device" = some d) := by
  constructor
  · intro run w
    cases hg : getopts svgOpts args with
    | none => simp [svgCommand, hg]
    | some m =>
      obtain ⟨l, h1, h2, rfl, rfl⟩ := getopts_only svg_table hg
      by_cases hh : 0 < l.helps
      · rw [(C109_svg_first run w l h1 h2).1 hh]; simp
      by_cases hf : l.files = []
      · rw [(C109_svg_first run w l h1 h2).2.1 (by omega) hf]; simp
      cases hc : l.value "config" with
      | none => rw [(C109_svg_first run w l h1 h2).2.2.1 (by omega) hf hc]; simp
      | some name =>
        cases hcfg : w.config name with
        | none => rw [(C109_svg_first run w l h1 h2).2.2.2 name (by omega) hf hc hcfg]; simp
        | some cfg =>
          obtain ⟨file, hfile⟩ : ∃ f, l.files.head? = some f := by
            cases h : l.files with
            | nil => exact absurd h hf
            | cons a r => exact ⟨a, rfl⟩
          by_cases htps : 2 ^ 31 ≤ cfg.ticksPerSecond
          · rw [(C109_ticks l h2 (by omega) hf name hc cfg htps).1 h1 run w hcfg]; simp
          rw [svgCommand_line run w l h1 h2 (by omega) file hfile name hc cfg hcfg (by omega)]
          cases svgNumbers (lineMatches l) with
          | error msg => simp
          | ok o =>
            simp only
            refine ⟨?_, ?_⟩
            · intro msg h
              exfalso
              revert h
              simp only [svgRest]
              split
              · simp
              · split
                · simp
                · split <;> simp
            · intro d h
              refine ⟨l, h1, h2, rfl, ?_⟩
              revert h
              simp only [svgRest]
              split
              · simp
              · split
                · simp
                · split <;> simp
  · intro run w
    cases hg : getopts rasterOpts args with
    | none => simp [rasterCommand, hg]
    | some m =>
      obtain ⟨l, h1, h2, rfl, rfl⟩ := getopts_only raster_table hg
      by_cases hh : 0 < l.helps
      · rw [(C109_raster_first run w l h1 h2).1 hh]; simp
      by_cases hf : l.files = []
      · rw [(C109_raster_first run w l h1 h2).2.1 (by omega) hf]; simp
      cases hc : l.value "config" with
      | none => rw [(C109_raster_first run w l h1 h2).2.2.1 (by omega) hf hc]; simp
      | some name =>
        cases hcfg : w.config name with
        | none => rw [(C109_raster_first run w l h1 h2).2.2.2 name (by omega) hf hc hcfg]; simp
        | some cfg =>
          obtain ⟨file, hfile⟩ : ∃ f, l.files.head? = some f := by
            cases h : l.files with
            | nil => exact absurd h hf
            | cons a r => exact ⟨a, rfl⟩
          by_cases htps : 2 ^ 31 ≤ cfg.ticksPerSecond
          · rw [(C109_ticks l h2 (by omega) hf name hc cfg htps).2 h1 run w hcfg]; simp
          rw [rasterCommand_line run w l h1 h2 (by omega) file hfile name hc cfg hcfg (by omega)]
          cases rasterNumbers (lineMatches l) with
          | error msg => simp
          | ok o =>
            simp only
            refine ⟨?_, ?_⟩
            · intro msg h
              revert h
              simp only [rasterRest]
              split
              · simp
              · simp
              · split
                · simp
                · split <;> simp
            · intro d h
              refine ⟨l, h1, h2, rfl, ?_⟩
              revert h
              simp only [rasterRest]
              split
              · simp
              · simp
              · split
                · simp
                · split <;> simp

/-! ### A command line -/

/-- `-c machine.json -v30 --repeat=2 --device /dev/ttyS0 --v-max 2.5e1 -- -figure.svg`. -/
def exampleLine : Line :=
  ⟨[.short 0 (key "c" "config") 'c' "machine.json".toList false, .short 0 (key "v" "draw-speed") 'v' "30".toList true,
    .word (key "" "repeat") "2".toList true, .word (key "d" "device") "/dev/ttyS0".toList false,
    .word (key "" "v-max") "2.5e1".toList false], some ["-figure.svg".toList]⟩

example : exampleLine.args = ["-c".toList, "machine.json".toList, "-v30".toList, "--repeat=2".toList, "--device".toList,
    "/dev/ttyS0".toList, "--v-max".toList, "2.5e1".toList, "--".toList, "-figure.svg".toList] := by decide

theorem exampleLine_valid : exampleLine.Valid svgKeys := by
  intro i hi
  simp only [exampleLine, List.mem_cons, List.not_mem_nil, or_false] at hi
  rcases hi with rfl | rfl | rfl | rfl | rfl <;> simp only [Item.Valid] <;> decide

theorem exampleLine_once : exampleLine.Once := ⟨by decide, by decide⟩

/-- The program runs with the speed 30 mm/s, two passes, the limit 25 mm/s and the default power, and opens the device. -/
example (e : Draw.Env) (w : World (List XmlEvent)) (cfg : Xy) (hcfg : w.config "machine.json".toList = some cfg)
    (htps : cfg.ticksPerSecond < 2 ^ 31)
    (doc : List XmlEvent) (hdoc : w.picture "-figure.svg".toList = some doc) (port q : Port)
    (hport : w.device "/dev/ttyS0".toList = some port)
    (hq : svgProgram cfg ⟨some 25, none, some 30, some 2, none⟩ none e doc port = some (some q)) :
    svgCommand (svgRun e) w exampleLine.args =
      ⟨[.config "machine.json".toList, .device "/dev/ttyS0".toList, .picture "-figure.svg".toList], .done (some q)⟩ := by
  have h := C109_svg_program e w exampleLine exampleLine_valid exampleLine_once (by decide) "-figure.svg".toList (by decide)
    "machine.json".toList (by decide) cfg hcfg htps (some 25) none (some 30) (some 2) none
    (by
      have := Float.some ⟨.none, [2], some [5], some ⟨false, .none, [1]⟩⟩ ⟨by decide, by simp⟩
      have hv : Spec.Svg.Num.value ⟨.none, [2], some [5], some ⟨false, .none, [1]⟩⟩ = 25 := by
        norm_num [Spec.Svg.Num.value, Spec.Svg.Digits.val, Spec.Svg.Sign.val, Spec.Svg.Exp.val]
      rw [hv] at this
      exact this)
    .none
    (by
      have := Float.some ⟨.none, [3, 0], none, none⟩ ⟨by decide, by simp⟩
      have hv : Spec.Svg.Num.value ⟨.none, [3, 0], none, none⟩ = 30 := by
        norm_num [Spec.Svg.Num.value, Nat.ofDigits, Spec.Svg.Digits.val, Spec.Svg.Sign.val, Spec.Svg.Exp.val]
      rw [hv] at this
      exact this)
    (.some _ 2 ⟨.none, [2], by decide, by decide, by decide, by decide, by decide⟩) .none (by simp) (by simp) doc hdoc
  refine (h.1 _ port (by decide) hport).1 q ?_
  have hl : exampleLine.value "layer" = none := by decide
  rw [hl]
  simpa using hq

/-- `--repeat 0` is refused before the device is opened. -/
example (run) (w : World (List XmlEvent)) (cfg : Xy) (hcfg : w.config "m".toList = some cfg)
    (htps : cfg.ticksPerSecond < 2 ^ 31) :
    svgCommand run w ["-cm".toList, "--repeat".toList, "0".toList, "-d".toList, "tty".toList, "f".toList] =
      ⟨[.config "m".toList], .message .repeatRange⟩ := by
  have h : svgNumbers (lineMatches ⟨[.short 0 (key "c" "config") 'c' "m".toList true,
      .word (key "" "repeat") "0".toList false, .short 0 (key "d" "device") 'd' "tty".toList false, .other "f".toList],
      none⟩) = .error .repeatRange := rfl
  have := svgCommand_line run w ⟨[.short 0 (key "c" "config") 'c' "m".toList true,
    .word (key "" "repeat") "0".toList false, .short 0 (key "d" "device") 'd' "tty".toList false, .other "f".toList], none⟩
    (by
      intro i hi
      simp only [List.mem_cons, List.not_mem_nil, or_false] at hi
      rcases hi with rfl | rfl | rfl | rfl <;> simp only [Item.Valid] <;> decide)
    ⟨by decide, by decide⟩ (by decide) "f".toList (by decide) "m".toList (by decide) cfg hcfg htps
  rw [h] at this
  exact this

/-- Too many ticks per second: the wrong number of passes is not noticed. -/
example (run) (w : World (List XmlEvent)) (hcfg : w.config "m".toList = some ⟨2 ^ 31, fun _ => ⟨80, 50, 500⟩⟩) :
    svgCommand run w ["-cm".toList, "--repeat".toList, "0".toList, "-d".toList, "tty".toList, "f".toList] =
      ⟨[.config "m".toList], .failed⟩ :=
  (C109_ticks ⟨[.short 0 (key "c" "config") 'c' "m".toList true,
    .word (key "" "repeat") "0".toList false, .short 0 (key "d" "device") 'd' "tty".toList false, .other "f".toList], none⟩
    ⟨by decide, by decide⟩ (by decide) (by decide) "m".toList (by decide) _ le_rfl).1
    (by
      intro i hi
      simp only [List.mem_cons, List.not_mem_nil, or_false] at hi
      rcases hi with rfl | rfl | rfl | rfl <;> simp only [Item.Valid] <;> decide) run w hcfg

/-- An unknown option, and an option that is given twice. -/
example (run w) : svgCommand run w ["--width".toList, "5".toList] = ⟨[], .failed⟩ ∧
    svgCommand run w ["-cm".toList, "--config=m".toList, "f".toList] = ⟨[], .failed⟩ := by
  constructor <;> rfl

/-- `inf` is accepted as a speed. -/
example : FloatText "-Inf".toList := .inr ⟨.minus, "Inf".toList, rfl, by decide⟩

end StepperPaths.Props
