import Verif.Model.GraphHistory

/-!
# Specification of the graph manager, in terms of histories only

Everything here is a function of the log of calls and of what they returned; nothing refers to the members of the
modelled classes. Logs are read newest call first.
-/

namespace Serpent

namespace Graph

variable {Val D : Type}

/-! ## Named keys and timestamps -/

/-- The (key, priority) a name stands for after a history (newest call first): the values last set, with one added for
every later increment; `none` if it was never set. -/
def specNamed (name : String) : List (Op Val D × Resp Val D) → Option (Int × Nat)
  | [] => none
  | (.setNamedKey n k p, _) :: earlier => if n = name then some (k, p) else specNamed name earlier
  | (.increment n, _) :: earlier =>
    if n = name then (specNamed name earlier).map (fun kp => (kp.1 + 1, kp.2)) else specNamed name earlier
  | _ :: earlier => specNamed name earlier

/-- The timestamp last set for a key in a history (newest call first). -/
def specTime (k : Int) : List (Op Val D × Resp Val D) → Option Int
  | [] => none
  | (.setTimestamp k' t, _) :: earlier => if k' = k then some t else specTime k earlier
  | _ :: earlier => specTime k earlier

/-! ## Values -/

/-- Where the optimiser's value sets file the variable of family `c` and index `k`: character code, then index. -/
def keyOf (c : Fam) (k : Int) : Key := c.chr * 2 ^ 56 + k.toNat

/-- The value most recently given to a quantity in a history (newest call first): by its setter, by `set_navstate`, or
by a feedback of optimised values that mentions it. Calls that threw count for nothing. -/
def specState (c : Fam) (k : Int) : List (Op Val D × Resp Val D) → Option Val
  | [] => none
  | (.setPose k' v, .done) :: e => if c = .X ∧ k' = k then some v else specState c k e
  | (.setVelocity k' v, .done) :: e => if c = .V ∧ k' = k then some v else specState c k e
  | (.setImuBias k' v, .done) :: e => if c = .B ∧ k' = k then some v else specState c k e
  | (.setBarometerBias k' v, .done) :: e => if c = .P ∧ k' = k then some v else specState c k e
  | (.setNavstate k' p v, .done) :: e =>
    if c = .X ∧ k' = k then some p else if c = .V ∧ k' = k then some v else specState c k e
  | (.updateFromValues vs, .done) :: e =>
    match vs.find (keyOf c k) with
    | some v => some v
    | none => specState c k e
  | _ :: e => specState c k e

/-- Every feedback of optimised values in the history succeeded (and was a `std::map`, i.e. sorted). -/
def FeedbackOk (log : Log Val D) : Prop :=
  ∀ vs r, (Op.updateFromValues vs, r) ∈ log → vs.Sorted ∧ r = .done

/-! ## Factors -/

/-- The stereo frames accepted so far, newest first. -/
def frames : List (Op Val D × Resp Val D) → List (Int × OMap Int D)
  | [] => []
  | (.stereo k fs, .done) :: e => (k, fs) :: frames e
  | _ :: e => frames e

/-- A feature of the newest frame is tracked for the first time: it is not in the frame before the previous one. -/
def newlyTracked (prevPrev : Option (OMap Int D)) (id : Int) : Bool :=
  match prevPrev with
  | none => true
  | some m => (m.find id).isNone

/-- Factors that a frame `l` at key `k` gives rise to, after a frame `prev` (and `prevPrev` before it): for each feature
seen in both frames, one factor on the pose of key `k`, preceded, when the feature is newly tracked, by one factor on
the pose of key `k - 1` carrying the observation of `prev`. -/
def stereoFactors (k : Int) (prev : OMap Int D) (prevPrev : Option (OMap Int D)) (l : OMap Int D) : List (Factor D) :=
  l.flatMap fun e =>
    match prev.find e.1 with
    | none => []
    | some po =>
      (if newlyTracked prevPrev e.1 then [⟨.stereo, [keyOf .X (k - 1), keyOf .S e.1], po⟩] else []) ++
        [⟨.stereo, [keyOf .X k, keyOf .S e.1], e.2⟩]

/-- Landmark ids newly tracked by a frame. -/
def trackedIds (prev : OMap Int D) (prevPrev : Option (OMap Int D)) (l : OMap Int D) : List Int :=
  (l.filter (fun e => (prev.find e.1).isSome && newlyTracked prevPrev e.1)).map Prod.fst

/-- Factors that a frame gives rise to, given the earlier frames (newest first). -/
def frameFactors (k : Int) (l : OMap Int D) : List (Int × OMap Int D) → List (Factor D)
  | [] => []
  | (_, prev) :: older => stereoFactors k prev (older.head?.map Prod.snd) l

/-- Landmark ids newly tracked by a frame, given the earlier frames (newest first). -/
def frameIds (l : OMap Int D) : List (Int × OMap Int D) → List Int
  | [] => []
  | (_, prev) :: older => trackedIds prev (older.head?.map Prod.snd) l

/-- The landmarks that start being tracked, with the key of the frame at which they do, in the order of the frames
(given newest first): the feature is in the frame and in the frame before, but not in the one before that. -/
def tracks : List (Int × OMap Int D) → List (Int × Int)
  | [] => []
  | (k, l) :: earlier => tracks earlier ++ (frameIds l earlier).map (fun id => (k, id))

/-- The feature was seen in two successive frames. -/
def Tracked (id : Int) : List (Int × OMap Int D) → Prop
  | (_, l) :: (k', l') :: earlier =>
    ((l.find id).isSome = true ∧ (l'.find id).isSome = true) ∨ Tracked id ((k', l') :: earlier)
  | _ => False

/-- Frames (newest first) with consecutive keys. -/
def Consecutive : List (Int × OMap Int D) → Prop
  | (k, _) :: (k', l') :: earlier => k = k' + 1 ∧ Consecutive ((k', l') :: earlier)
  | _ => True

/-- The frame with key `k`. -/
def frameAt (k : Int) (fs : List (Int × OMap Int D)) : Option (OMap Int D) :=
  (fs.find? (fun e => decide (e.1 = k))).map Prod.snd

/-- The feature `id` was seen in the frame with key `k`. -/
def seen (k id : Int) (fs : List (Int × OMap Int D)) : Bool :=
  match frameAt k fs with
  | none => false
  | some l => (l.find id).isSome

/-- The variables each kind of factor relates: consecutive states for the between, IMU and barometer bias factors, the
state itself for priors, pose and barometer bias for a pressure measurement. -/
def specVars : PlainKind → Int → List Key
  | .baroBias, k => [keyOf .P (k - 1), keyOf .P k]
  | .baro, k => [keyOf .X k, keyOf .P k]
  | .betweenPose, k => [keyOf .X (k - 1), keyOf .X k]
  | .combinedImu, k => [keyOf .X (k - 1), keyOf .V (k - 1), keyOf .X k, keyOf .V k, keyOf .B (k - 1), keyOf .B k]
  | .priorBaro, k => [keyOf .P k]
  | .priorImuBias, k => [keyOf .B k]
  | .priorPose, k => [keyOf .X k]
  | .priorVelocity, k => [keyOf .V k]

/-- All factors created, oldest first, each with the key it was created for. -/
def created : List (Op Val D × Resp Val D) → List (Int × Factor D)
  | [] => []
  | (.create kind k d, .done) :: e =>
    created e ++ [(k, ⟨.plain kind, specVars kind k, d⟩)]
  | (.stereo k l, .done) :: e => created e ++ (frameFactors k l (frames e)).map (fun f => (k, f))
  | _ :: e => created e

/-- Factors created and not yet extracted, oldest first. -/
def waiting : List (Op Val D × Resp Val D) → List (Int × Factor D)
  | [] => []
  | (.create kind k d, .done) :: e =>
    waiting e ++ [(k, ⟨.plain kind, specVars kind k, d⟩)]
  | (.stereo k l, .done) :: e => waiting e ++ (frameFactors k l (frames e)).map (fun f => (k, f))
  | (.extractFactors m, _) :: e => (waiting e).filter (fun f => decide (m < f.1))
  | _ :: e => waiting e

/-- The factors returned by all extractions, in order. -/
def extractedFactors : List (Op Val D × Resp Val D) → List (Factor D)
  | [] => []
  | (_, .factors fs) :: e => extractedFactors e ++ fs
  | _ :: e => extractedFactors e

/-- The variables returned by all value extractions, in order. -/
def extractedKeys : List (Op Val D × Resp Val D) → List Key
  | [] => []
  | (_, .values vs) :: e => extractedKeys e ++ vs.map Prod.fst
  | _ :: e => extractedKeys e

/-- Every stereo call succeeded, with keys in increasing order (and frames that are maps). -/
def StereoOk : List (Op Val D × Resp Val D) → Prop
  | [] => True
  | (.stereo k l, r) :: e => r = .done ∧ l.Sorted ∧ (∀ f ∈ frames e, f.1 < k) ∧ StereoOk e
  | _ :: e => StereoOk e

/-- Every extraction of values in the history returned (none threw). -/
def ExtractOk (log : List (Op Val D × Resp Val D)) : Prop := ∀ m r, (Op.extractValues m, r) ∈ log → r ≠ .threw

/-- No landmark starts being tracked twice. -/
def NoReacquired (fs : List (Int × OMap Int D)) : Prop := ((tracks fs).map Prod.snd).Nodup

/-- `t` is the list `w` sorted by key, keeping the order of entries with equal keys. -/
def StableSort {α : Type} (t w : List (Int × α)) : Prop :=
  t.Pairwise (fun a b => a.1 ≤ b.1) ∧
    ∀ k : Int, t.filter (fun e => decide (e.1 = k)) = w.filter (fun e => decide (e.1 = k))

/-- `l` lists the second components of `w` ordered by key, and within a key in the order of `w`. -/
def ListsInKeyOrder {α : Type} (l : List α) (w : List (Int × α)) : Prop :=
  ∃ t, StableSort t w ∧ l = t.map Prod.snd

end Graph

end Serpent
