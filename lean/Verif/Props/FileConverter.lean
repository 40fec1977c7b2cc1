import Verif.Model.FileConverter
import Verif.Props.PclStatistics
import Verif.Props.PclNormals

/-!
# C112: files and topics, C114: the analyser
-/

namespace Serpent

namespace FileConverter

open Pcl

variable {β : Type}

/-! ### Specification -/

/-- The load requests that were served: those before a save that does not return. -/
def servedLoads : List Event → List LoadRequest
  | [] => []
  | .load _ r :: es => r :: servedLoads es
  | .save r a :: es => if a = none ∧ r.timeout = 0 then [] else servedLoads es

/-- The message for a cloud: its points and fields, the frame that was asked for, and the time in whole microseconds. -/
def loadedMsg (now : Nat) (frame : String) (c : Cloud) : CloudMsg where
  seq := c.header.seq
  stamp := now / 1000 * 1000
  frame := frame
  height := c.height
  width := c.width
  fields := c.fields
  isBigendian := c.isBigendian
  pointStep := c.pointStep
  rowStep := c.rowStep
  data := c.data
  isDense := c.isDense

/-- Files of this path hold everything but the header (as files of PCL do). -/
def Formats.Lawful (fmt : Formats β) (path : String) : Prop :=
  ∀ c b, fmt.save path c = some b → fmt.load path b = some { c with header := ⟨0, 0, ""⟩ }

/-- No save of the requests goes to the path. -/
def NoSaveTo (path : String) (es : List Event) : Prop := ∀ r a, Event.save r a ∈ es → r.filepath ≠ path

/-! ### Proofs -/

theorem advertise_publishers (r : LoadRequest) (n : Node β) (t : String) :
    (advertise r n).2.files = n.files ∧ (advertise r n).2.blocked = n.blocked ∧
    (t ≠ r.topic → (advertise r n).2.publishers t = n.publishers t) ∧
    (advertise r n).2.publishers r.topic = some (advertise r n).1 ∧
    (advertise r n).1 = (n.publishers r.topic).getD ⟨r.latch, []⟩ := by
  unfold advertise
  split
  · rename_i t' h
    exact ⟨rfl, rfl, fun _ => rfl, h, by rw [h]; rfl⟩
  · rename_i h
    refine ⟨rfl, rfl, fun ht => Function.update_of_ne ht _ _, Function.update_self .., by rw [h]; rfl⟩

theorem run_snoc (fmt : Formats β) (n : Node β) (es : List Event) (e : Event) :
    run fmt n (es ++ [e]) = (step fmt (run fmt n es) e).2 := by
  unfold run
  rw [List.foldl_append]
  rfl

theorem run_append (fmt : Formats β) (n : Node β) (es es' : List Event) : run fmt n (es ++ es') = run fmt (run fmt n es) es' := by
  unfold run
  rw [List.foldl_append]

theorem step_blocked {fmt : Formats β} {n : Node β} (h : n.blocked = true) (e : Event) : step fmt n e = (none, n) := by
  unfold step
  rw [if_pos h]

theorem run_blocked {fmt : Formats β} {n : Node β} (h : n.blocked = true) (es : List Event) : run fmt n es = n := by
  induction es with
  | nil => rfl
  | cons e es ih =>
    show run fmt (step fmt n e).2 es = n
    rw [step_blocked h, ih]

theorem step_load {fmt : Formats β} {n : Node β} (h : n.blocked = false) (now : Nat) (r : LoadRequest) :
    step fmt n (.load now r) = (some (load fmt now r n).1, (load fmt now r n).2) := by
  unfold step
  rw [if_neg (by rw [h]; decide)]

theorem step_save {fmt : Formats β} {n : Node β} (h : n.blocked = false) (r : SaveRequest) (a : Option CloudMsg) :
    step fmt n (.save r a) = save fmt r a n := by
  unfold step
  rw [if_neg (by rw [h]; decide)]

/-- What a load leaves: files, and the flag. -/
theorem load_kept (fmt : Formats β) (now : Nat) (r : LoadRequest) (n : Node β) :
    (load fmt now r n).2.files = n.files ∧ (load fmt now r n).2.blocked = n.blocked := by
  obtain ⟨h1, h2, -⟩ := advertise_publishers r n r.topic
  unfold load
  split
  · exact ⟨h1, h2⟩
  · exact ⟨h1, h2⟩

/-- C112. A cloud that can be read from the file is published: whatever was asked before, one message is sent on the topic, which has the
points of the file, the frame that was asked for and the time (in whole microseconds), of either type; nothing is sent on other topics,
no file changes, and the reply names the topic and the number of points. -/
theorem C112_load (fmt : Formats β) (n : Node β) (hb : n.blocked = false) (now : Nat) (r : LoadRequest) {b : β} {c : Cloud}
    (hf : n.files r.filepath = some b) (hc : fmt.load r.filepath b = some c) (hs : c.height * c.width < 2 ^ 32) :
    ∃ n', step fmt n (.load now r) = (some (.done ("Published pointcloud (" ++ toString (c.height * c.width) ++ " points) to topic '" ++
        r.topic ++ "'")), n') ∧
      (∃ t, n'.publishers r.topic = some t ∧
        t.sent = ((n.publishers r.topic).map (·.sent)).getD [] ++ [loadedMsg now r.frameId c]) ∧
      (∀ topic, topic ≠ r.topic → n'.publishers topic = n.publishers topic) ∧ n'.files = n.files ∧ n'.blocked = false := by
  obtain ⟨h1, h2, h3, h4, h5⟩ := advertise_publishers r n r.topic
  refine ⟨(load fmt now r n).2, ?_, ?_, ?_, (load_kept ..).1, (load_kept ..).2.trans hb⟩
  · rw [step_load hb]
    unfold load
    rw [hf]
    simp only [Option.bind_some, hc]
    unfold publishLoaded
    dsimp only
    rw [show u32 (c.height * c.width) = c.height * c.width from Nat.mod_eq_of_lt hs]
  · unfold load
    rw [hf]
    simp only [Option.bind_some, hc]
    unfold publishLoaded
    dsimp only
    refine ⟨_, Function.update_self .., ?_⟩
    dsimp only
    congr 1
    · rw [h5]
      cases n.publishers r.topic <;> rfl
    · split <;> rfl
  · intro topic ht
    have := (advertise_publishers r n topic).2.2.1 ht
    unfold load
    rw [hf]
    simp only [Option.bind_some, hc]
    unfold publishLoaded
    dsimp only
    rw [Function.update_of_ne ht, this]

/-- C112. If the file cannot be read the caller is told, and nothing is sent or written. -/
theorem C112_load_failed (fmt : Formats β) (n : Node β) (hb : n.blocked = false) (now : Nat) (r : LoadRequest)
    (hf : ∀ b, n.files r.filepath = some b → fmt.load r.filepath b = none) :
    ∃ n', step fmt n (.load now r) = (some .error, n') ∧ n'.files = n.files ∧ n'.blocked = false ∧
      ∀ topic, ((n'.publishers topic).map (·.sent)).getD [] = ((n.publishers topic).map (·.sent)).getD [] := by
  obtain ⟨h1, h2, h3, h4, h5⟩ := advertise_publishers r n r.topic
  refine ⟨(load fmt now r n).2, ?_, (load_kept ..).1, (load_kept ..).2.trans hb, ?_⟩
  · rw [step_load hb]
    unfold load
    cases hfile : n.files r.filepath with
    | none => rfl
    | some b => simp only [Option.bind_some, hf b hfile]
  · intro topic
    have e : (load fmt now r n).2 = (advertise r n).2 := by
      unfold load
      cases hfile : n.files r.filepath with
      | none => rfl
      | some b => simp only [Option.bind_some, hf b hfile]
    rw [e]
    by_cases ht : topic = r.topic
    · subst ht
      rw [h4, h5]
      cases n.publishers r.topic <;> rfl
    · rw [(advertise_publishers r n topic).2.2.1 ht]

/-- C112 (partial). After every sequence of requests: a topic is advertised exactly when a load to it was served, and its last message is
kept for later subscribers exactly when the first of those loads asked for it. Missing: the other loads, whose wish is ignored
(`C112_fails_latch`). -/
theorem C112_latch_partial (fmt : Formats β) (files : String → Option β) (es : List Event) (topic : String) :
    ((run fmt (start files) es).publishers topic).map (·.latch) = ((servedLoads es).find? (fun r => r.topic = topic)).map (·.latch) := by
  have gen : ∀ (es : List Event) (n : Node β), n.blocked = false →
      ((run fmt n es).publishers topic).map (·.latch) =
        ((n.publishers topic).map (·.latch)).or (((servedLoads es).find? (fun r => r.topic = topic)).map (·.latch)) := by
    intro es
    induction es with
    | nil =>
      intro n _
      show _ = Option.or _ none
      rw [Option.or_none]
      rfl
    | cons e es ih =>
      intro n hn
      show ((run fmt (step fmt n e).2 es).publishers topic).map (·.latch) = _
      cases e with
      | load now r =>
        have hb := (load_kept fmt now r n).2.trans hn
        rw [step_load hn, ih _ hb]
        obtain ⟨h1, h2, h3, h4, h5⟩ := advertise_publishers r n topic
        have e : ((load fmt now r n).2.publishers topic).map (·.latch) = ((advertise r n).2.publishers topic).map (·.latch) := by
          unfold load
          split
          · rfl
          · unfold publishLoaded
            dsimp only
            by_cases ht : topic = r.topic
            · subst ht
              rw [Function.update_self, h4]
              rfl
            · rw [Function.update_of_ne ht]
        rw [e, servedLoads]
        by_cases ht : topic = r.topic
        · subst ht
          rw [h4, h5, List.find?_cons_of_pos (by simp)]
          cases n.publishers r.topic <;> rfl
        · rw [h3 ht, List.find?_cons_of_neg (by simpa using fun h => ht h.symm)]
      | save r a =>
        rw [step_save hn, servedLoads]
        cases a with
        | none =>
          unfold save
          dsimp only
          by_cases h0 : r.timeout = 0
          · rw [if_pos h0, if_pos ⟨rfl, h0⟩, run_blocked rfl]
            show _ = Option.or _ none
            rw [Option.or_none]
          · rw [if_neg h0, if_neg (fun h => h0 h.2)]
            exact ih n hn
        | some m =>
          rw [if_neg (fun h => by cases h.1)]
          unfold save saveCloud
          dsimp only
          split
          · exact ih n hn
          · exact ih _ hn
  have := gen es (start files) rfl
  rwa [show (start files).publishers topic = none from rfl, Option.map_none, Option.none_or] at this

/-- C112. What later subscribers of a topic get: its last message, if messages are kept, and nothing otherwise. -/
theorem C112_kept (t : Topic) : (t.latch = true → t.kept = t.sent.getLast?) ∧ (t.latch = false → t.kept = none) := by
  unfold Topic.kept
  exact ⟨fun h => by rw [h, if_pos rfl], fun h => by rw [h]; rfl⟩

/-- C112. A message that arrives in time is saved: the file holds what PCL makes of the message, no other file and no topic changes, and
the reply names the number of points and the file. If PCL cannot save it, or if no message arrives in time, the caller is told, and
nothing changes. -/
theorem C112_save (fmt : Formats β) (n : Node β) (hb : n.blocked = false) (r : SaveRequest) :
    (∀ m b, fmt.save r.filepath (toPCL m) = some b → m.width * m.height < 2 ^ 32 →
      ∃ n', step fmt n (.save r (some m)) =
          (some (.done ("Saved PCL pointcloud (" ++ toString (m.width * m.height) ++ " points) to " ++ r.filepath)), n') ∧
        n'.files r.filepath = some b ∧ (∀ path, path ≠ r.filepath → n'.files path = n.files path) ∧
        n'.publishers = n.publishers ∧ n'.blocked = false) ∧
    (∀ m, fmt.save r.filepath (toPCL m) = none → step fmt n (.save r (some m)) = (some .error, n)) ∧
    (r.timeout ≠ 0 → step fmt n (.save r none) = (some .error, n)) := by
  refine ⟨fun m b hs hw => ?_, fun m hs => ?_, fun h0 => ?_⟩
  · refine ⟨{ n with files := Function.update n.files r.filepath (some b) }, ?_, Function.update_self .., fun p hp =>
      Function.update_of_ne hp _ _, rfl, hb⟩
    rw [step_save hb]
    unfold save saveCloud
    dsimp only
    rw [hs]
    dsimp only
    rw [show u32 ((toPCL m).width * (toPCL m).height) = m.width * m.height from Nat.mod_eq_of_lt hw]
  · rw [step_save hb]
    unfold save saveCloud
    dsimp only
    rw [hs]
  · rw [step_save hb]
    unfold save
    dsimp only
    rw [if_neg h0]

/-- C112. A save without a timeout for which no message arrives does not return, and no later request is answered. -/
theorem C112_blocks (fmt : Formats β) (n : Node β) (hb : n.blocked = false) (r : SaveRequest) (h0 : r.timeout = 0) (es : List Event)
    (e : Event) : (step fmt n (.save r none)).1 = none ∧ (step fmt (run fmt n (.save r none :: es)) e).1 = none := by
  have h : step fmt n (.save r none) = (none, { n with blocked := true }) := by
    rw [step_save hb]
    unfold save
    dsimp only
    rw [if_pos h0]
  refine ⟨by rw [h], ?_⟩
  have : run fmt n (.save r none :: es) = { n with blocked := true } := by
    show run fmt (step fmt n (.save r none)).2 es = _
    rw [h]
    exact run_blocked rfl es
  rw [this, step_blocked rfl]

theorem files_kept {fmt : Formats β} {path : String} {es : List Event} (h : NoSaveTo path es) (n : Node β) :
    (run fmt n es).files path = n.files path := by
  induction es generalizing n with
  | nil => rfl
  | cons e es ih =>
    show (run fmt (step fmt n e).2 es).files path = _
    rw [ih (fun r a hm => h r a (List.mem_cons_of_mem _ hm))]
    by_cases hb : n.blocked = true
    · rw [step_blocked hb]
    · rw [Bool.not_eq_true] at hb
      cases e with
      | load now r => rw [step_load hb]; exact congrFun (load_kept ..).1 path
      | save r a =>
        have hp := h r a (List.mem_cons_self ..)
        rw [step_save hb]
        unfold save saveCloud
        cases a with
        | none => dsimp only; split <;> rfl
        | some m =>
          dsimp only
          split
          · rfl
          · exact Function.update_of_ne hp.symm _ _

/-- C112. A message that is saved, and later loaded from the file, is published again with the same points and fields, in the frame that
is asked for: whatever was asked in between, as long as nothing else is saved to the file and the node answers. -/
theorem C112_round_trip (fmt : Formats β) (n : Node β) (hb : n.blocked = false) (s : SaveRequest) (m : CloudMsg) (text : String)
    (hsave : (step fmt n (.save s (some m))).1 = some (.done text)) (hl : fmt.Lawful s.filepath) (es : List Event)
    (hes : NoSaveTo s.filepath es) (now : Nat) (r : LoadRequest) (hr : r.filepath = s.filepath)
    (hb' : (run fmt n (.save s (some m) :: es)).blocked = false) :
    ∃ t, (run fmt n (.save s (some m) :: es ++ [.load now r])).publishers r.topic = some t ∧
      t.sent.getLast? = some { m with seq := 0, stamp := now / 1000 * 1000, frame := r.frameId } := by
  obtain ⟨b, hfmt⟩ : ∃ b, fmt.save s.filepath (toPCL m) = some b := by
    cases e : fmt.save s.filepath (toPCL m) with
    | some b => exact ⟨b, rfl⟩
    | none => rw [(C112_save fmt n hb s).2.1 m e] at hsave; simp at hsave
  have hfile : (run fmt n (.save s (some m) :: es)).files r.filepath = some b := by
    rw [hr]
    show (run fmt (step fmt n (.save s (some m))).2 es).files s.filepath = _
    rw [files_kept hes, step_save hb]
    unfold save saveCloud
    dsimp only
    rw [hfmt]
    exact Function.update_self ..
  rw [run_snoc]
  generalize run fmt n (.save s (some m) :: es) = n' at *
  have hload : fmt.load r.filepath b = some { toPCL m with header := ⟨0, 0, ""⟩ } := by rw [hr]; exact hl _ _ hfmt
  rw [step_load hb']
  unfold load
  rw [hfile]
  simp only [Option.bind_some, hload]
  unfold publishLoaded
  dsimp only
  refine ⟨_, Function.update_self .., ?_⟩
  dsimp only
  rw [List.getLast?_concat]
  congr 1
  split <;> rfl

/-! ### Where it fails -/

/-- A format that can save and load all clouds, in all files but "bad". -/
def plain : Formats Cloud :=
  ⟨fun p c => if p = "bad" then none else some { c with header := ⟨0, 0, ""⟩ }, fun p c => if p = "bad" then none else some c⟩

/-- C112, false for latching: a load that asks for the message to be kept is answered as done, and yet later subscribers get nothing,
when an earlier load, even one that failed, did not ask for it. -/
theorem C112_fails_latch : ∃ (n : Node Cloud) (r : LoadRequest) (text : String),
    n = run plain (start fun p => if p = "a" then some .empty else none) [.load 0 ⟨"missing", "points", "map", false, false⟩] ∧
    (step plain (start fun p => if p = "a" then some .empty else none) (.load 0 ⟨"missing", "points", "map", false, false⟩)).1 =
      some .error ∧
    r.latch = true ∧ (step plain n (.load 1 r)).1 = some (.done text) ∧
    ∃ t, (step plain n (.load 1 r)).2.publishers r.topic = some t ∧ t.sent ≠ [] ∧ t.kept = none := by
  refine ⟨_, ⟨"a", "points", "map", true, false⟩, _, rfl, rfl, rfl, rfl, ⟨_, rfl, ?_, rfl⟩⟩
  exact List.concat_ne_nil _ _

/-- C112, false with Open3D: a save of the type of PCL that fails is answered as done, for every message, and nothing is written. -/
theorem C112_fails_open3d (fmt : Formats β) (n : Node β) (r : SaveRequest) (m : CloudMsg) (hs : fmt.save r.filepath (toPCL m) = none) :
    ∃ text, saveOpen3d fmt r m n = (.done text, n) := by
  unfold saveOpen3d
  rw [hs]
  exact ⟨_, rfl⟩

/-- C112 with Open3D: the reply names the points, the path and the return code of the call that saves, which is zero exactly when the
file has been written. -/
theorem C112_open3d (fmt : Formats β) (n : Node β) (r : SaveRequest) (m : CloudMsg) :
    (saveOpen3d fmt r m n).1 = .done ("Saved PCL pointcloud (" ++ toString (u32 (m.width * m.height)) ++ " points) to " ++ r.filepath ++
      " with return code " ++ (if (fmt.save r.filepath (toPCL m)).isSome then "0" else "-1")) ∧
    (∀ b, fmt.save r.filepath (toPCL m) = some b → (saveOpen3d fmt r m n).2.files r.filepath = some b) ∧
    (∀ p, p ≠ r.filepath → (saveOpen3d fmt r m n).2.files p = n.files p) ∧
    (saveOpen3d fmt r m n).2.publishers = n.publishers ∧ (saveOpen3d fmt r m n).2.blocked = n.blocked := by
  unfold saveOpen3d
  cases h : fmt.save r.filepath (toPCL m) with
  | none => exact ⟨rfl, fun b hb => (by cases hb), fun p _ => rfl, rfl, rfl⟩
  | some b =>
    refine ⟨rfl, fun b' hb => ?_, fun p hp => ?_, rfl, rfl⟩
    · cases hb
      exact Function.update_self ..
    · exact Function.update_of_ne hp ..

/-- Hypotheses of the theorems are met: files of this format but one are lawful, the other cannot be saved to. -/
example : plain.Lawful "a" ∧ plain.save "bad" .empty = none ∧ plain.save "a" .empty = some .empty ∧
    NoSaveTo "a" [.load 0 ⟨"a", "points", "map", false, false⟩, .save ⟨"b", "points", 1, true⟩ none] := by
  refine ⟨fun c b h => ?_, rfl, rfl, fun r a h => ?_⟩
  · simp only [plain, String.reduceEq, if_false, Option.some.injEq] at h
    subst h
    rfl
  · simp only [List.mem_cons, reduceCtorEq, Event.save.injEq, List.not_mem_nil, or_false, false_or] at h
    rw [h.1]
    decide

/-! ### C114 -/

open Classical in
/-- C114 (partial). For every cloud that has points, whose fields are of known types: one array of statistics is published, with the time
of the message in whole microseconds and its frame, and one summary per field in the order of the fields. If the cloud has the three
components of normals (as `float`), the number of normals whose length differs from 1 by more than a millionth is reported, and the number
of points; if one is missing, nothing is reported about normals. Missing: clouds without points and fields of other types, which end the
node (`C114_fails_empty`). -/
theorem C114_analysis_partial {cd : Codec ℝ} {rep : FT → ℝ → Prop} (hl : cd.Lawful rep) (msg : CloudMsg) (hw : WellFormed (toPCL msg))
    (ty : PField → FT) (ht : ∀ f ∈ msg.fields, HasType (toPCL msg) f (ty f))
    (hT : ∀ f ∈ msg.fields, ∀ i < count (toPCL msg), rep .float64 (value cd (ty f) (toPCL msg) f i))
    (hadd : ∀ a b, cd.add .float64 a b = .ok (a + b)) (hlow : ∀ v, rep .float64 v → cd.lowest .float64 ≤ v)
    (hhigh : ∀ v, rep .float64 v → v ≤ cd.highest .float64) (hc : 0 < count (toPCL msg))
    (hn : ∀ f ∈ msg.fields, f.name = "normal_x" ∨ f.name = "normal_y" ∨ f.name = "normal_z" → ty f = .float32) :
    ∃ r, analyse cd msg = .ok r ∧ r.header = (msg.seq, msg.stamp / 1000 * 1000, msg.frame) ∧
      List.Forall₂ (fun f s => Summarises cd (ty f) (toPCL msg) f s) msg.fields r.statistics ∧
      (∀ x y z, getField (toPCL msg) "normal_x" = .ok x → getField (toPCL msg) "normal_y" = .ok y →
        getField (toPCL msg) "normal_z" = .ok z →
        r.normals = some ((List.range (count (toPCL msg))).countP (fun i =>
          decide (1 / 1000000 < |Real.sqrt ((value cd .float32 (toPCL msg) x i) ^ 2 + (value cd .float32 (toPCL msg) y i) ^ 2 +
            (value cd .float32 (toPCL msg) z i) ^ 2) - 1|)), count (toPCL msg))) ∧
      ((∃ n ∈ ["normal_x", "normal_y", "normal_z"], ∀ f ∈ msg.fields, f.name ≠ n) → r.normals = none) := by
  obtain ⟨l, e1, hs⟩ := C60_statistics hl hw ty ht hT hadd hlow hhigh hc
  have fld : ∀ {name : String} {f : PField}, getField (toPCL msg) name = .ok f → f ∈ msg.fields ∧ f.name = name := by
    intro name f h
    unfold getField at h
    split at h
    · rename_i g hg
      obtain rfl := Outcome.ok.inj h
      exact ⟨List.mem_of_find?_eq_some hg, by simpa using List.find?_some hg⟩
    · cases h
  have has : ∀ name, hasField (toPCL msg) name = true ↔ ∃ f, getField (toPCL msg) name = .ok f := by
    intro name
    unfold hasField getField
    rw [List.any_eq_true]
    constructor
    · rintro ⟨f, hf, hn⟩
      cases e : (toPCL msg).fields.find? (fun f => f.name = name) with
      | some g => exact ⟨g, rfl⟩
      | none => exact absurd hn (List.find?_eq_none.1 e f hf)
    · rintro ⟨f, h⟩
      split at h
      · rename_i g hg
        have h2 := List.find?_some (p := fun f : PField => decide (f.name = name)) hg
        exact ⟨g, List.mem_of_find?_eq_some hg, h2⟩
      · cases h
  by_cases hall : (hasField (toPCL msg) "normal_x" && hasField (toPCL msg) "normal_y" && hasField (toPCL msg) "normal_z") = true
  · have h3 := hall
    rw [Bool.and_eq_true, Bool.and_eq_true] at h3
    obtain ⟨⟨hx, hy⟩, hz⟩ := h3
    obtain ⟨x, hx⟩ := (has _).1 hx
    obtain ⟨y, hy⟩ := (has _).1 hy
    obtain ⟨z, hz⟩ := (has _).1 hz
    have tx : HasType (toPCL msg) x .float32 := by
      have := ht x (fld hx).1
      rwa [hn x (fld hx).1 (.inl (fld hx).2)] at this
    have ty' : HasType (toPCL msg) y .float32 := by
      have := ht y (fld hy).1
      rwa [hn y (fld hy).1 (.inr (.inl (fld hy).2))] at this
    have tz : HasType (toPCL msg) z .float32 := by
      have := ht z (fld hz).1
      rwa [hn z (fld hz).1 (.inr (.inr (fld hz).2))] at this
    have hcn := C100_check_normals cd (1 / 1000000) hw hx hy hz tx ty' tz
    refine ⟨⟨(msg.seq, msg.stamp / 1000 * 1000, msg.frame), l, some ((List.range (count (toPCL msg))).countP (fun i =>
          decide (1 / 1000000 < |Real.sqrt ((value cd .float32 (toPCL msg) x i) ^ 2 + (value cd .float32 (toPCL msg) y i) ^ 2 +
            (value cd .float32 (toPCL msg) z i) ^ 2) - 1|)), count (toPCL msg))⟩, ?_, rfl, hs, ?_, ?_⟩
    rotate_left
    · intro x' y' z' hx' hy' hz'
      obtain rfl := Outcome.ok.inj (hx.symm.trans hx')
      obtain rfl := Outcome.ok.inj (hy.symm.trans hy')
      obtain rfl := Outcome.ok.inj (hz.symm.trans hz')
      rfl
    · rintro ⟨n, hmem, hno⟩
      exfalso
      have : n = "normal_x" ∨ n = "normal_y" ∨ n = "normal_z" := by simpa using hmem
      rcases this with rfl | rfl | rfl
      · exact hno x (fld hx).1 (fld hx).2
      · exact hno y (fld hy).1 (fld hy).2
      · exact hno z (fld hz).1 (fld hz).2
    · unfold analyse reportNormals
      dsimp only
      rw [e1, Outcome.bind_ok, if_pos hall, hcn, Outcome.bind_ok, Outcome.bind_ok, hw.sizePoints]
      rfl
  · refine ⟨⟨(msg.seq, msg.stamp / 1000 * 1000, msg.frame), l, none⟩, ?_, rfl, hs, ?_, fun _ => rfl⟩
    · unfold analyse reportNormals
      dsimp only
      rw [e1, Outcome.bind_ok, if_neg hall, Outcome.bind_ok]
      rfl
    · intro x y z hx hy hz
      exact absurd (by rw [(has _).2 ⟨x, hx⟩, (has _).2 ⟨y, hy⟩, (has _).2 ⟨z, hz⟩]; rfl) hall

/-- C114, false for clouds without points: every such cloud that has a field ends the node. -/
theorem C114_fails_empty (cd : Codec ℝ) (msg : CloudMsg) (hw : WellFormed (toPCL msg)) (hc : count (toPCL msg) = 0)
    (hf : msg.fields ≠ []) : analyse cd msg = .throws := by
  have hstat : statistics cd (toPCL msg) = .throws := by
    unfold statistics
    show msg.fields.foldlM _ _ = _
    match h : msg.fields with
    | [] => exact absurd h hf
    | f :: fs =>
      rw [List.foldlM_cons]
      have : statisticsField cd (toPCL msg) f = .throws := by
        unfold statisticsField
        rw [(C60_empty hw hc).2]
        rfl
      rw [this]
      rfl
  unfold analyse
  dsimp only
  rw [hstat]
  rfl

/-- The hypotheses of `C114_analysis_partial` are met by the cloud with normals of length 1 and 2. -/
example : ∃ r, analyse Ieee.realCodec (fromPCL twoNormals) = .ok r ∧ r.statistics.length = 3 ∧ r.normals.isSome := by
  classical
  have e : toPCL (fromPCL twoNormals) = twoNormals := rfl
  have hv : ∀ f ∈ twoNormals.fields, ∀ i < count twoNormals, Ieee.repReal .float64 (value Ieee.realCodec .float32 twoNormals f i) := by
    have q : ∀ f ∈ twoNormals.fields, ∀ i < count twoNormals, ∃ bs ∈ [[0, 0, 0, 0, 0, 0, 0, 0], [0, 0, 0, 0, 0, 0, 240, 63],
        [0, 0, 0, 0, 0, 0, 0, 64]], bs.length = 8 ∧ value Ieee.codec .float32 twoNormals f i = Ieee.dec .float64 bs := by
      decide +kernel
    intro f hf i hi
    obtain ⟨bs, -, hl, h⟩ := q f hf i hi
    exact ⟨bs, hl, congrArg (fun x : ℚ => (x : ℝ)) h.symm⟩
  obtain ⟨r, h, -, hs, hn, -⟩ := C114_analysis_partial (cd := Ieee.realCodec) Ieee.realLawful (fromPCL twoNormals)
    ⟨rfl, rfl, by decide, by decide⟩ (fun _ => .float32) (by
      intro f hf
      have : ∀ f ∈ twoNormals.fields, f.datatype = 7 ∧ f.offset + 4 ≤ 12 := by decide
      exact ⟨(this f hf).1, (this f hf).2⟩) hv (fun _ _ => rfl) (fun v hv => by
      obtain ⟨bs, hl, rfl⟩ := hv
      exact Rat.cast_le.2 (Ieee.lowest_le .float64 _ ⟨bs, hl, rfl⟩)) (fun v hv => by
      obtain ⟨bs, hl, rfl⟩ := hv
      exact Rat.cast_le.2 (Ieee.le_highest .float64 _ ⟨bs, hl, rfl⟩)) (by decide) (fun _ _ _ => rfl)
  refine ⟨r, h, hs.length_eq.symm, ?_⟩
  rw [hn ⟨"normal_x", 0, 7, 1⟩ ⟨"normal_y", 4, 7, 1⟩ ⟨"normal_z", 8, 7, 1⟩ (by decide +kernel) (by decide +kernel) (by decide +kernel)]
  rfl

/-- An empty cloud of a lidar. -/
example : WellFormed (toPCL ⟨0, 0, "lidar", 1, 0, [⟨"x", 0, 7, 1⟩], false, 4, 0, [], true⟩) ∧
    count (toPCL ⟨0, 0, "lidar", 1, 0, [⟨"x", 0, 7, 1⟩], false, 4, 0, [], true⟩) = 0 :=
  ⟨⟨rfl, rfl, by decide, by decide⟩, rfl⟩

end FileConverter

end Serpent
