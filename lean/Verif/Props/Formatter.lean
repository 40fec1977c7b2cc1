import Verif.Model.Formatter
import Verif.Props.PclCast
import Verif.Props.PclFilter

/-!
# The node that formats pointclouds (C101)
-/

namespace Serpent

namespace Lidar

open Pcl

variable {K : Type} [Mul K] {cd : Codec K} {rep : FT → K → Prop} {le : K → K → Bool} {cfg : FormatterConfig K}

theorem formatRun_started (cs : List Cloud) (s : FormatterState) (hs : cfg.removeFirst = false ∨ s.removed = true) :
    (∀ outs, cs.map (formatted cd le cfg) = outs.map .ok →
      formatRun cd le cfg cs s = (.ok (), { s with published := s.published ++ outs })) ∧
    (∀ before c after outs, cs = before ++ c :: after → before.map (formatted cd le cfg) = outs.map .ok →
      (∀ o, formatted cd le cfg c ≠ .ok o) →
      (formatRun cd le cfg cs s).1 ≠ .ok () ∧ (formatRun cd le cfg cs s).2 = { s with published := s.published ++ outs }) := by
  have hn : ¬ (cfg.removeFirst = true ∧ s.removed = false) := by rcases hs with h | h <;> simp [h]
  induction cs generalizing s with
  | nil =>
    constructor
    · intro outs h
      cases outs with
      | nil => simp [formatRun]
      | cons o os => simp at h
    · intro before c after outs h
      cases before <;> simp at h
  | cons c cs ih =>
    constructor
    · intro outs h
      cases outs with
      | nil => simp at h
      | cons o os =>
        rw [List.map_cons, List.map_cons, List.cons.injEq] at h
        unfold formatRun format
        rw [if_neg hn, h.1]
        dsimp only
        rw [(ih { s with published := s.published ++ [o] } hs hn).1 os h.2]
        simp
    · intro before d after outs h hb hd
      cases before with
      | nil =>
        rw [List.nil_append, List.cons.injEq] at h
        cases outs with
        | cons o os => simp at hb
        | nil =>
          rw [h.1]
          unfold formatRun format
          rw [if_neg hn]
          cases e : formatted cd le cfg d with
          | ok o => exact absurd e (hd o)
          | throws => simp
          | ub => simp
      | cons b bs =>
        rw [List.cons_append, List.cons.injEq] at h
        cases outs with
        | nil => simp at hb
        | cons o os =>
          rw [List.map_cons, List.map_cons, List.cons.injEq] at hb
          unfold formatRun format
          rw [if_neg hn, h.1, hb.1]
          dsimp only
          have := (ih { s with published := s.published ++ [o] } hs hn).2 bs d after os h.2 hb.2 hd
          refine ⟨this.1, this.2.trans ?_⟩
          simp

/-- C101. Every cloud after the first one (every cloud, if the removal of the first one is not enabled) is formatted on its own
and published exactly once, in order; if a cloud cannot be formatted, the node stops there, and the clouds before it have been
published. -/
theorem C101_once (cs : List Cloud) :
    (∀ outs, ((if cfg.removeFirst then cs.drop 1 else cs).map (formatted cd le cfg)) = outs.map .ok →
      (formatRun cd le cfg cs ⟨false, []⟩).1 = .ok () ∧ (formatRun cd le cfg cs ⟨false, []⟩).2.published = outs) ∧
    (∀ before c after outs, (if cfg.removeFirst then cs.drop 1 else cs) = before ++ c :: after →
      before.map (formatted cd le cfg) = outs.map .ok → (∀ o, formatted cd le cfg c ≠ .ok o) →
      (formatRun cd le cfg cs ⟨false, []⟩).1 ≠ .ok () ∧ (formatRun cd le cfg cs ⟨false, []⟩).2.published = outs) := by
  cases h : cfg.removeFirst with
  | false =>
    simp only [Bool.false_eq_true, if_false]
    obtain ⟨h1, h2⟩ := formatRun_started (cd := cd) (le := le) (cfg := cfg) cs ⟨false, []⟩ (.inl h)
    refine ⟨fun outs e => ?_, fun b c a outs e hb hc => ?_⟩
    · rw [h1 outs e]; simp
    · obtain ⟨e1, e2⟩ := h2 b c a outs e hb hc
      exact ⟨e1, by rw [e2]; simp⟩
  | true =>
    simp only [if_true]
    cases cs with
    | nil =>
      refine ⟨fun outs e => ?_, fun b c a outs e => ?_⟩
      · cases outs <;> simp [formatRun] at e ⊢
      · cases b <;> simp at e
    | cons c cs =>
      have hr : formatRun cd le cfg (c :: cs) ⟨false, []⟩ = formatRun cd le cfg cs ⟨true, []⟩ := by
        rw [formatRun, format, if_pos ⟨h, rfl⟩]
      rw [hr, List.drop_one, List.tail_cons]
      obtain ⟨h1, h2⟩ := formatRun_started (cd := cd) (le := le) (cfg := cfg) cs ⟨true, []⟩ (.inr rfl)
      refine ⟨fun outs e => ?_, fun b c a outs e hb hc => ?_⟩
      · rw [h1 outs e]; simp
      · obtain ⟨e1, e2⟩ := h2 b c a outs e hb hc
        exact ⟨e1, by rw [e2]; simp⟩

omit [Mul K] in
/-- The time filter and the frame: the published cloud has the frame of the lidar and the stamp of its message, and with
the filter enabled its points are those whose time is not above the maximum, in order. `t` is the first field named "t". -/
theorem formatTime_ok {c : Cloud} {t : PField} (hw : WellFormed c) (hf : FirstNamed c "t" t) (ht : HasType c t .float32) :
    ∃ out, (formatTime cd le cfg c >>= fun c => .ok { c with header := { c.header with frame := cfg.frame } }) = .ok out ∧
      WellFormed out ∧ out.header = { c.header with frame := cfg.frame } ∧ out.fields = c.fields ∧ out.pointStep = c.pointStep ∧
      points out = (if cfg.timeFilter then (points c).filter (fun pt => le (valueIn cd .float32 t.offset pt) cfg.maxTime)
        else points c) := by
  unfold formatTime
  have hh : hasField c "t" = true := by
    obtain ⟨b, a, e, hn, -⟩ := hf
    exact (C58_get_field c "t").2.2.2.2 ⟨t, by rw [e]; simp, hn⟩
  cases h : cfg.timeFilter with
  | false =>
    exact ⟨_, rfl, ⟨hw.row, hw.length, hw.bytes, hw.points⟩, rfl, rfl, rfl, rfl⟩
  | true =>
    rw [if_pos rfl, hh, if_neg (by simp), getField_first hf, Outcome.bind_ok, if_neg (by simp [ht.1])]
    obtain ⟨out, ho, h1, h2, -, -, h3, h4, h5, -⟩ := C57_filter_max (cd := cd) (le := le) (T := .float32) (dest := Cloud.empty)
      (max := cfg.maxTime) (num := valueIn cd .float32 t.offset) hw ht (fun pt _ => if_pos rfl)
    rw [ho, Outcome.bind_ok]
    exact ⟨_, rfl, ⟨h2.row, h2.length, h2.bytes, h2.points⟩, by dsimp only; rw [h3], h4, h5, h1⟩

/-- C101. Ouster clouds: with times and ranges that are `uint32` (the first fields with these names, without a common byte), there
is a cloud `c'` in which the time of point `i` is `time i` (the `float` for the number of nanoseconds times `1.0e-9`), its range
is `range i` (the `float` for the number of millimetres times `1.0e-3`), the bytes of all other fields are the same, and the
points that are published are those of `c'` with a time not above the maximum. -/
theorem C101_ouster (hl : cd.Lawful rep) {c : Cloud} {before between after : List PField} {t r : PField} {time range : Nat → K}
    (hcfg : cfg.sensor = .ouster) (hw : WellFormed c)
    (hfields : c.fields = before ++ t :: (between ++ r :: after))
    (ht : t.name = "t") (hr : r.name = "range") (hbefore : ∀ g ∈ before, g.name ≠ "t" ∧ g.name ≠ "range")
    (hbetween : ∀ g ∈ between, g.name ≠ "range")
    (tt : HasType c t .uint32) (tr : HasType c r .uint32) (hd : Disjoint t .uint32 r .uint32)
    (hdouble : ∀ i < count c, rep .float64 (value cd .uint32 c t i) ∧ rep .float64 (value cd .uint32 c r i))
    (htime : ∀ i < count c, castTo cd .float64 .float32 (value cd .uint32 c t i * cfg.nano) = .ok (time i) ∧ rep .float32 (time i))
    (hrange : ∀ i < count c,
      castTo cd .float64 .float32 (value cd .uint32 c r i * cfg.milli) = .ok (range i) ∧ rep .float32 (range i)) :
    ∃ c' out, formatted cd le cfg c = .ok out ∧
      (count c' = count c ∧ c'.pointStep = c.pointStep ∧ WellFormed c') ∧
      (∀ i < count c, value cd .float32 c' t i = time i ∧ value cd .float32 c' r i = range i) ∧
      (∀ i < count c, ∀ o < c.pointStep, ¬ (t.offset ≤ o ∧ o < t.offset + 4) → ¬ (r.offset ≤ o ∧ o < r.offset + 4) →
        c'.data[i * c.pointStep + o]? = c.data[i * c.pointStep + o]?) ∧
      WellFormed out ∧ out.header = { c.header with frame := cfg.frame } ∧ out.pointStep = c.pointStep ∧
      out.fields = before ++ { t with datatype := FT.float32.code } :: (between ++ { r with datatype := FT.float32.code } :: after) ∧
      points out = (if cfg.timeFilter then (points c').filter (fun pt => le (valueIn cd .float32 t.offset pt) cfg.maxTime)
        else points c') := by
  obtain ⟨c1, h1, r1, f1⟩ := C62_cast_with_scale_partial (name := "t") (type := .float32) (scale := cfg.nano) (w := time) hl hw
    hfields ht (fun g hg => (hbefore g hg).1) tt rfl (by decide) (fun i hi => (hdouble i hi).1) htime
  have m1 : count c1 = count c ∧ c1.pointStep = c.pointStep ∧ c1.header = c.header := by
    have := r1.descr
    refine ⟨?_, ?_, ?_⟩
    · have := congrArg count this; exact this
    · have := congrArg Cloud.pointStep this; exact this
    · have := congrArg Cloud.header this; exact this
  have tr1 : HasType c1 r .uint32 := ⟨tr.1, by rw [m1.2.1]; exact tr.2⟩
  have rv : ∀ i < count c, value cd .uint32 c1 r i = value cd .uint32 c r i := by
    intro i hi
    unfold value bytesAt
    congr 1
    apply slice_congr
    intro j hj
    rw [m1.2.1, Nat.add_assoc]
    have h4 : FT.uint32.size = 4 := rfl
    have h4' : FT.float32.size = 4 := rfl
    have := tr.2
    rcases hd with hd | hd <;>
    · rw [h4] at hd hj this
      exact r1.others i hi (r.offset + j) (by omega) (by rw [h4']; omega)
  obtain ⟨c2, h2, r2, f2⟩ := C62_cast_with_scale_partial (name := "range") (type := .float32) (scale := cfg.milli) (w := range)
    (before := before ++ { t with datatype := FT.float32.code } :: between) (after := after) hl r1.wellFormed
    (by rw [f1]; simp) hr (by
      intro g hg
      simp only [List.mem_append, List.mem_cons] at hg
      rcases hg with hg | rfl | hg
      · exact (hbefore g hg).2
      · dsimp only; rw [ht]; decide
      · exact hbetween g hg) tr1 rfl (by decide)
    (fun i hi => by rw [m1.1] at hi; rw [rv i hi]; exact (hdouble i hi).2)
    (fun i hi => by rw [m1.1] at hi; rw [rv i hi]; exact hrange i hi)
  have m2 : count c2 = count c ∧ c2.pointStep = c.pointStep ∧ c2.header = c.header := by
    have := r2.descr
    refine ⟨?_, ?_, ?_⟩
    · have := congrArg count this; exact Eq.trans this m1.1
    · have := congrArg Cloud.pointStep this; exact Eq.trans this m1.2.1
    · have := congrArg Cloud.header this; exact Eq.trans this m1.2.2
  have tv : ∀ i < count c, value cd .float32 c2 t i = time i := by
    intro i hi
    rw [← r1.values i hi]
    unfold value bytesAt
    congr 1
    apply slice_congr
    intro j hj
    rw [m1.2.1, m2.2.1, Nat.add_assoc]
    have h4 : FT.uint32.size = 4 := rfl
    have h4' : FT.float32.size = 4 := rfl
    have := tt.2
    have o := r2.others i (by rw [m1.1]; exact hi) (t.offset + j)
    rw [m1.2.1] at o
    rcases hd with hd | hd <;>
    · rw [h4] at hd this
      rw [h4'] at hj o
      exact o (by omega) (by omega)
  have hfirst : FirstNamed c2 "t" { t with datatype := FT.float32.code } :=
    ⟨before, between ++ { r with datatype := FT.float32.code } :: after, by rw [f2]; simp, ht, fun g hg => (hbefore g hg).1⟩
  have htt : HasType c2 { t with datatype := FT.float32.code } .float32 := ⟨rfl, by rw [m2.2.1]; exact tt.2⟩
  obtain ⟨out, ho, o1, o2, o3, o4, o5⟩ := formatTime_ok (cd := cd) (le := le) (cfg := cfg) r2.wellFormed hfirst htt
  refine ⟨c2, out, ?_, ⟨m2.1, m2.2.1, r2.wellFormed⟩,
    fun i hi => ⟨tv i hi, r2.values i (by rw [m1.1]; exact hi)⟩, ?_, o1, ?_, o4.trans m2.2.1, ?_, o5⟩
  · unfold formatted formatSensor
    rw [hcfg]
    dsimp only
    rw [h1, Outcome.bind_ok, h2, Outcome.bind_ok, ho]
  · intro i hi o ho hot hor
    have a := r2.others i (by rw [m1.1]; exact hi) o (by rw [m1.2.1]; exact ho) hor
    rw [m1.2.1] at a
    rw [a]
    exact r1.others i hi o ho hot
  · rw [o2, m2.2.2]
  · rw [o3, f2]; simp

/-- C101. Other clouds: a field "time" is called "t" if there is no "t"; nothing else changes but the points the filter removes and
the frame. -/
theorem C101_custom {c : Cloud} {before after : List PField} {t : PField} (hcfg : cfg.sensor = .custom) (hw : WellFormed c)
    (hfields : c.fields = before ++ t :: after)
    (hname : (t.name = "t" ∧ ∀ g ∈ before, g.name ≠ "t") ∨
      (t.name = "time" ∧ (∀ g ∈ before, g.name ≠ "time") ∧ ∀ g ∈ c.fields, g.name ≠ "t"))
    (ht : HasType c t .float32) :
    ∃ out, formatted cd le cfg c = .ok out ∧ WellFormed out ∧ out.header = { c.header with frame := cfg.frame } ∧
      out.fields = before ++ { t with name := "t" } :: after ∧ out.pointStep = c.pointStep ∧
      points out = (if cfg.timeFilter then (points c).filter (fun pt => le (valueIn cd .float32 t.offset pt) cfg.maxTime)
        else points c) := by
  unfold formatted formatSensor
  rw [hcfg]
  dsimp only
  have hmem : t ∈ c.fields := by rw [hfields]; simp
  rcases hname with ⟨hn, hb⟩ | ⟨hn, hb, ha⟩
  · have hh : hasField c "t" = true := (C58_get_field c "t").2.2.2.2 ⟨t, hmem, hn⟩
    rw [hh, if_neg (by simp), Outcome.bind_ok]
    obtain ⟨out, ho, h1, h2, h3, h4, h5⟩ := formatTime_ok (cd := cd) (le := le) (cfg := cfg) hw ⟨before, after, hfields, hn, hb⟩ ht
    refine ⟨out, ho, h1, h2, ?_, h4, h5⟩
    rw [h3, hfields]
    congr 2
    rw [← hn]
  · have hh : hasField c "t" = false := by
      rw [← Bool.not_eq_true, (C58_get_field c "t").2.2.2]
      rintro ⟨f, hf, e⟩
      exact ha f hf e
    have hh' : hasField c "time" = true := (C58_get_field c "time").2.2.2.2 ⟨t, hmem, hn⟩
    rw [hh, hh', if_pos (by rfl), (C58_rename c "time" "t").2 before t after hfields hn hb, Outcome.bind_ok]
    obtain ⟨out, ho, h1, h2, h3, h4, h5⟩ := formatTime_ok (cd := cd) (le := le) (cfg := cfg)
      (c := { c with fields := before ++ { t with name := "t" } :: after }) (t := { t with name := "t" })
      ⟨hw.row, hw.length, hw.bytes, hw.points⟩
      ⟨before, after, rfl, rfl, fun g hg => ha g (by rw [hfields]; simp [hg])⟩ ht
    exact ⟨out, ho, h1, h2, h3, h4, h5⟩

theorem of_bind_ok {α β : Type} {x : Outcome α} {f : α → Outcome β} {b : β} (h : (x >>= f) = .ok b) :
    ∃ a, x = .ok a ∧ f a = .ok b := by
  cases x with
  | ok a => exact ⟨a, rfl, h⟩
  | throws => cases h
  | ub => cases h

theorem updateFirst_names (name : String) (d : Nat) (l : List PField) :
    (updateFirst name (fun f => { f with datatype := d }) l).map (·.name) = l.map (·.name) := by
  induction l with
  | nil => rfl
  | cons f fs ih =>
    unfold updateFirst
    split
    · rfl
    · rw [List.map_cons, ih, List.map_cons]

omit [Mul K] in
theorem mapField_fields {get : Cloud → Nat → Outcome K} {set : Cloud → Nat → K → Outcome Cloud} {g : K → K}
    (hs : ∀ c i v c', set c i v = .ok c' → c'.fields = c.fields) {c c' : Cloud} (h : mapField get set g c = .ok c') :
    c'.fields = c.fields := by
  unfold mapField at h
  generalize sizePoints c = n at h
  induction n generalizing c' with
  | zero => rw [EigenRos.forLoop_zero] at h; cases h; rfl
  | succ n ih =>
    rw [EigenRos.forLoop_succ] at h
    obtain ⟨c1, h1, h⟩ := of_bind_ok h
    obtain ⟨v, -, h⟩ := of_bind_ok h
    rw [hs _ _ _ _ h, ih h1]

theorem castFieldWithScale_names {type : FT} {name : String} {scale : K} {c c' : Cloud}
    (h : castFieldWithScale cd type c name scale = .ok c') : c'.fields.map (·.name) = c.fields.map (·.name) := by
  unfold castFieldWithScale at h
  obtain ⟨f, -, h⟩ := of_bind_ok h
  obtain ⟨b, -, h⟩ := of_bind_ok h
  split at h
  · cases h
  split at h
  · obtain ⟨get, -, h⟩ := of_bind_ok h
    obtain ⟨set, hset, h⟩ := of_bind_ok h
    have hs : ∀ c i v c', set c i v = .ok c' → c'.fields = c.fields := by
      unfold setterTyped at hset
      split at hset
      · cases hset
      · cases hset
        intro c i v c' hw
        unfold writeAs at hw
        obtain ⟨w, -, hw⟩ := of_bind_ok hw
        obtain ⟨d, -, hw⟩ := of_bind_ok hw
        cases hw
        rfl
    rw [mapField_fields hs h]
    exact updateFirst_names _ _ _
  · cases h; rfl

/-- C101. An Ouster cloud without "range" is never published. -/
theorem C101_no_range {c out : Cloud} (hs : cfg.sensor = .ouster) (h : ∀ f ∈ c.fields, f.name ≠ "range") :
    formatted cd le cfg c ≠ .ok out := by
  intro e
  obtain ⟨c2, h2, -⟩ := of_bind_ok e
  unfold formatSensor at h2
  rw [hs] at h2
  obtain ⟨c1, h1, h2⟩ := of_bind_ok h2
  have hn := castFieldWithScale_names h1
  rw [(C62_cast_throws (c := c1) (name := "range") (type := .float32) cfg.milli (.inl fun f hf e => ?_)).2] at h2
  · cases h2
  · have : "range" ∈ c1.fields.map (·.name) := e ▸ List.mem_map_of_mem hf
    rw [hn] at this
    obtain ⟨g, hg, e'⟩ := List.mem_map.1 this
    exact h g hg e'

/-- C101. Refused: an Ouster cloud without "t", and, with the time filter, any cloud without a time. -/
theorem C101_refused {c : Cloud} :
    (cfg.sensor = .ouster → (∀ f ∈ c.fields, f.name ≠ "t") → formatted cd le cfg c = .throws) ∧
    (cfg.sensor = .custom → cfg.timeFilter = true → (∀ f ∈ c.fields, f.name ≠ "t" ∧ f.name ≠ "time") →
      formatted cd le cfg c = .throws) := by
  unfold formatted formatSensor
  constructor
  · intro h ht
    rw [h]
    dsimp only
    rw [(C62_cast_throws (type := .float32) cfg.nano (.inl ht)).2]
    rfl
  · intro h hf ht
    rw [h]
    dsimp only
    have h1 : hasField c "t" = false := by
      rw [← Bool.not_eq_true, (C58_get_field c "t").2.2.2]
      rintro ⟨f, hf, e⟩
      exact (ht f hf).1 e
    have h2 : hasField c "time" = false := by
      rw [← Bool.not_eq_true, (C58_get_field c "time").2.2.2]
      rintro ⟨f, hf, e⟩
      exact (ht f hf).2 e
    rw [h1, h2, if_neg (by simp), Outcome.bind_ok]
    unfold formatTime
    rw [if_pos hf, if_pos h1]
    rfl

/-- C101 fails for Ouster clouds whose times are already `float` (as a driver may publish nanoseconds as `float`): the scale is
not applied. -/
theorem C101_fails_float {c : Cloud} {t r : PField} (hcfg : cfg.sensor = .ouster) (ht : FirstNamed c "t" t)
    (hr : FirstNamed c "range" r) (tt : t.datatype = FT.float32.code) (tr : r.datatype = FT.float32.code)
    (hf : cfg.timeFilter = false) :
    formatted cd le cfg c = .ok { c with header := { c.header with frame := cfg.frame } } := by
  unfold formatted formatSensor formatTime
  rw [hcfg, hf]
  dsimp only
  rw [C62_fails_same_type ht tt, Outcome.bind_ok, C62_fails_same_type hr tr, Outcome.bind_ok]
  rfl

/-- An Ouster cloud of two points: times of 0 and 1000000000 ns, ranges of 1000 mm and 2000 mm. -/
def ousterCloud : Cloud :=
  ⟨⟨3, 77, "os_sensor"⟩, 1, 2, [⟨"t", 0, 6, 1⟩, ⟨"range", 4, 6, 1⟩], false, 8, 16,
    [0, 0, 0, 0, 232, 3, 0, 0, 0, 202, 154, 59, 208, 7, 0, 0], true⟩

/-- A configuration with a maximum of half a second. -/
def ousterConfig : FormatterConfig ℚ := ⟨.ouster, true, 1 / 2, false, "lidar", 1 / 1000000000, 1 / 1000⟩

/-- The hypotheses of `C101_ouster` are met: the first of the two points is published, with a time of 0 s and a range of 1 m. -/
example : ∃ out, formatted Ieee.codec (fun a b => decide (a ≤ b)) ousterConfig ousterCloud = .ok out ∧ (points out).length = 1 ∧
    out.header = ⟨3, 77, "lidar"⟩ := by
  have v0 : value Ieee.codec .uint32 ousterCloud ⟨"t", 0, 6, 1⟩ 0 = 0 := by decide +kernel
  have v1 : value Ieee.codec .uint32 ousterCloud ⟨"t", 0, 6, 1⟩ 1 = 1000000000 := by decide +kernel
  have w0 : value Ieee.codec .uint32 ousterCloud ⟨"range", 4, 6, 1⟩ 0 = 1000 := by decide +kernel
  have w1 : value Ieee.codec .uint32 ousterCloud ⟨"range", 4, 6, 1⟩ 1 = 2000 := by decide +kernel
  have d0 : Ieee.rep .float64 0 := ⟨[0, 0, 0, 0, 0, 0, 0, 0], rfl, by decide +kernel⟩
  have d1 : Ieee.rep .float64 1000000000 := ⟨[0, 0, 0, 0, 101, 205, 205, 65], rfl, by decide +kernel⟩
  have d2 : Ieee.rep .float64 1000 := ⟨[0, 0, 0, 0, 0, 64, 143, 64], rfl, by decide +kernel⟩
  have d3 : Ieee.rep .float64 2000 := ⟨[0, 0, 0, 0, 0, 64, 159, 64], rfl, by decide +kernel⟩
  have f0 : Ieee.rep .float32 0 := ⟨[0, 0, 0, 0], rfl, by decide +kernel⟩
  have f1 : Ieee.rep .float32 1 := ⟨[0, 0, 128, 63], rfl, by decide +kernel⟩
  have f2 : Ieee.rep .float32 2 := ⟨[0, 0, 0, 64], rfl, by decide +kernel⟩
  have hc : count ousterCloud = 2 := rfl
  have two : ∀ i, i < count ousterCloud → i = 0 ∨ i = 1 := by intro i hi; rw [hc] at hi; omega
  obtain ⟨c', out, h, ⟨k1, k2, k3⟩, hv, -, -, ho, -, -, hp⟩ := C101_ouster (le := fun a b => decide (a ≤ b)) (cfg := ousterConfig)
    (time := fun i => if i = 0 then 0 else 1) (range := fun i => if i = 0 then 1 else 2) (before := []) (between := []) (after := [])
    (t := ⟨"t", 0, 6, 1⟩) (r := ⟨"range", 4, 6, 1⟩) (c := ousterCloud)
    Ieee.lawful rfl ⟨rfl, rfl, by decide, by decide⟩ rfl rfl rfl (by simp) (by simp) ⟨rfl, by decide⟩ ⟨rfl, by decide⟩
    (.inl (by decide))
    (by
      intro i hi
      rcases two i hi with rfl | rfl
      · rw [v0, w0]; exact ⟨d0, d2⟩
      · rw [v1, w1]; exact ⟨d1, d3⟩)
    (by
      intro i hi
      rcases two i hi with rfl | rfl
      · rw [v0, show (0 : ℚ) * ousterConfig.nano = 0 by simp]
        exact ⟨castTo_of_rep Ieee.lawful _ f0, f0⟩
      · rw [v1, show (1000000000 : ℚ) * ousterConfig.nano = 1 by norm_num [ousterConfig]]
        exact ⟨castTo_of_rep Ieee.lawful _ f1, f1⟩)
    (by
      intro i hi
      rcases two i hi with rfl | rfl
      · rw [w0, show (1000 : ℚ) * ousterConfig.milli = 1 by norm_num [ousterConfig]]
        exact ⟨castTo_of_rep Ieee.lawful _ f1, f1⟩
      · rw [w1, show (2000 : ℚ) * ousterConfig.milli = 2 by norm_num [ousterConfig]]
        exact ⟨castTo_of_rep Ieee.lawful _ f2, f2⟩)
  refine ⟨out, h, ?_, ho⟩
  rw [hp, if_pos (by rfl)]
  unfold points
  rw [k1, hc, show List.range 2 = [0, 1] from rfl, List.map_cons, List.map_cons, List.map_nil]
  have tt : HasType c' ⟨"t", 0, 7, 1⟩ .float32 := ⟨rfl, by rw [k2]; decide⟩
  have e0 := value_eq_valueIn (cd := Ieee.codec) tt 0
  have e1 := value_eq_valueIn (cd := Ieee.codec) tt 1
  have q0 : value Ieee.codec .float32 c' ⟨"t", 0, 7, 1⟩ 0 = 0 := (hv 0 (by decide)).1
  have q1 : value Ieee.codec .float32 c' ⟨"t", 0, 7, 1⟩ 1 = 1 := (hv 1 (by decide)).1
  rw [q0] at e0
  rw [q1] at e1
  rw [List.filter_cons, List.filter_cons, List.filter_nil]
  dsimp only at e0 e1 ⊢
  rw [← e0, ← e1]
  norm_num [ousterConfig]

end Lidar

end Serpent
