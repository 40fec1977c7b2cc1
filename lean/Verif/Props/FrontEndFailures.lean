import Verif.Spec.FrontEndFailures
import Verif.Props.FrontEndDeskew

/-!
# C132: when the callbacks of the front end fail
-/

namespace Serpent

namespace FrontEnd

open Utils

section
variable {A K : Type} [Field K]

/-- Once a state exists, two measurements are buffered. -/
theorem two_move (cfg : Cfg A K) (s s' : FE A K) (hc : CI s) (hi : II s) (h : s.ghost.states ≠ [] → 2 ≤ s.imuBuffer.length)
    (hm : Move cfg s s') : s'.ghost.states ≠ [] → 2 ≤ s'.imuBuffer.length := by
  cases hm with
  | imuQuiet m _ _ h0 hlt => intro hs; have := h hs; simp; omega
  | imuOdometry m p _ _ h0 hlt => intro hs; have := h hs; simp [FE.emit]; omega
  | optimisedA t m _ _ hb _ => exact h
  | optimisedB p last _ _ => exact h
  | barometer p _ _ ht =>
    obtain ⟨bb, bt, ps, rfl, _⟩ := ht.frame
    exact h
  | stereoQuiet t _ _ => exact h
  | stereoSent t _ _ => exact h
  | cloudFirst msg hp hc' h0 hlt => exact h
  | cloudNext msg prev hp hc' h0 hlt => exact h
  | selectWait msg prev hp hc' _ _ => exact h
  | selectFrame msg prev f rest hp hc' _ hf hr hle hlt _ =>
    split
    · exact h
    · exact h
  | selectStart msg prev l hp hc' hl _ => exact h
  | s2s msg prev t first others m ms hp hc' hin hb hle hsel =>
    intro _
    have hso : StrictlyOrdered s.imuBuffer := hi.ordered.sublist hi.suffix.sublist
    rcases selectImu_cases s.prevState t (prev_lt hc hp hin).1 s.imuBuffer (hso.imp (fun h => le_of_lt h)) first others hb hle with
      ⟨hu, _⟩ | ⟨before, f, after, e1, e2, e3, e4, e5⟩
    · rw [hu] at hsel; simp at hsel
    · rw [e5] at hsel
      obtain ⟨rfl, rfl⟩ := List.cons.inj (Outcome.ok.inj hsel)
      have hdel : deleteOld f.stamp s.imuBuffer = f :: after := by
        rw [e1]; exact deleteOld_split before f after (e1 ▸ hso)
      simp only [FE.emit, hdel, List.length_cons]
      have := List.length_pos_iff.2 e2
      omega
  | initWait msg prev t hp hc' hin hwt => exact h
  | initial msg prev t m hp hc' hint =>
    intro _
    simp only [FE.emit]
    match hl : s.imuBuffer, hint with
    | [], hint => simp [interpolatedImu] at hint
    | [_], hint => simp [interpolatedImu] at hint
    | _ :: _ :: _, _ => simp
  | biasKnown msg prev t hp hc' hb hbs hle => exact h
  | deskew msg prev t hp hc' => exact h
  | finishBaro msg prev t hp hc' _ ht =>
    obtain ⟨bb, bt, ps, rfl, _⟩ := ht.frame
    exact h
  | finish msg prev t hp hc' _ => exact h

theorem two_buffered (cfg : Cfg A K) (s : FE A K) (hr : Reach cfg s) : s.ghost.states ≠ [] → 2 ≤ s.imuBuffer.length :=
  Reach.induct (P := fun s => s.ghost.states ≠ [] → 2 ≤ s.imuBuffer.length) (by simp)
    (fun s s' hr h hm => two_move cfg s s' (ci cfg s hr) (ii cfg s hr) h hm) hr

/-- A state whose biases are not yet known is not earlier than the previous state. -/
theorem prev_le (cfg : Cfg A K) (s : FE A K) (hr : Reach cfg s) {t : Int} (ht : t ∈ s.ghost.states) (hb : s.biasStamp < t) :
    s.prevState ≤ t := by
  have hci := ci cfg s hr
  have hii := ii cfg s hr
  have hinc := hci.increasing
  have hdone : t ∉ settled s.ghost.states s.phase := fun h => by have := (hii.done t h).1; omega
  have hpo := hci.phaseOk
  have last : ∀ ss, s.ghost.states = ss ++ [s.prevState] → s.prevState ≤ t → s.prevState ≤ t := fun _ _ h => h
  have fromLast : ∀ {o : Option Int}, s.ghost.states.getLast? = o → (o = if s.initialised then some s.prevState else none) →
      t ∉ s.ghost.states.dropLast → s.prevState ≤ t := by
    intro o h1 h2 h3
    rcases List.eq_nil_or_concat s.ghost.states with he | ⟨l, x, he⟩
    · rw [he] at ht; simp at ht
    · rw [List.concat_eq_append] at he
      rw [he] at ht h1 h3
      rw [List.dropLast_concat] at h3
      have hx : t = x := by
        rcases List.mem_append.1 ht with h | h
        · exact absurd h h3
        · simpa using h
      rw [List.getLast?_concat, ] at h1
      rw [← h1] at h2
      split at h2
      · have := Option.some.inj h2; omega
      · simp at h2
  cases hp : s.phase with
  | idle =>
    rw [hp] at hpo hdone
    exact fromLast rfl hpo.2.2 hdone
  | select msg =>
    rw [hp] at hpo hdone
    obtain ⟨cs, prev, h1, h2, h3, h4⟩ := hpo
    exact fromLast rfl h4 hdone
  | imu msg u =>
    rw [hp] at hpo hdone
    obtain ⟨cs, prev, h1, h2, h3, h4, _⟩ := hpo
    exact fromLast rfl h4 hdone
  | init msg u =>
    rw [hp] at hpo
    obtain ⟨cs, prev, h1, h2, h3, h4, _⟩ := hpo
    rw [h4] at ht; simp at ht
  | bias msg u =>
    rw [hp] at hpo hdone
    obtain ⟨cs, prev, h1, h2, h3, h4⟩ := hpo
    split at h4
    · obtain ⟨ss, h4⟩ := h4
      rw [h4] at hdone ht hinc
      have e : (ss ++ [s.prevState, u]).dropLast.dropLast = ss := by
        have : ss ++ [s.prevState, u] = (ss ++ [s.prevState]) ++ [u] := by simp
        rw [this, List.dropLast_concat, List.dropLast_concat]
      simp only [settled, e] at hdone
      have hlt : s.prevState < u := by have := (List.pairwise_append.1 hinc).2.1; simpa using this
      rcases List.mem_append.1 ht with h | h
      · exact absurd h hdone
      · rcases List.mem_cons.1 h with rfl | h
        · omega
        · have : t = u := by simpa using h
          omega
    · rw [h4.1] at ht
      have : t = u := by simpa using ht
      omega
  | deskew msg u | baro msg u =>
    rw [hp] at hpo hdone
    obtain ⟨cs, prev, h1, h2, h3, h4⟩ := hpo
    split at h4
    · obtain ⟨ss, h4⟩ := h4
      rw [h4] at hdone ht hinc
      have e : (ss ++ [s.prevState, u]).dropLast = ss ++ [s.prevState] := by
        have : ss ++ [s.prevState, u] = (ss ++ [s.prevState]) ++ [u] := by simp
        rw [this, List.dropLast_concat]
      simp only [settled, e] at hdone
      have hlt : s.prevState < u := by have := (List.pairwise_append.1 hinc).2.1; simpa using this
      rcases List.mem_append.1 ht with h | h
      · exact absurd (List.mem_append_left _ h) hdone
      · rcases List.mem_cons.1 h with rfl | h
        · omega
        · have : t = u := by simpa using h
          omega
    · rw [h4.1] at ht
      have : t = u := by simpa using ht
      omega

omit [Field K] in
/-- The measurement nearer to a time does not depend on which pair of neighbours around it is taken. -/
theorem nearer_unique {l : List (Stamped A)} (ho : StrictlyOrdered l) {t : Int} {p p' : List (Stamped A)} {a b a' b' : Stamped A}
    {q q' : List (Stamped A)} (h : l = p ++ a :: b :: q) (h' : l = p' ++ a' :: b' :: q') (h1 : a.stamp ≤ t) (h2 : t ≤ b.stamp)
    (h1' : a'.stamp ≤ t) (h2' : t ≤ b'.stamp) : nearer a b t = nearer a' b' t := by
  have key : ∀ {p p' : List (Stamped A)} {a b a' b' : Stamped A} {q q' : List (Stamped A)}, l = p ++ a :: b :: q →
      l = p' ++ a' :: b' :: q' → t ≤ b.stamp → a'.stamp ≤ t → t ≤ b'.stamp → p.length < p'.length →
      nearer a b t = nearer a' b' t := by
    intro p p' a b a' b' q q' h h' h2 h1' h2' hlt
    have hb : l[p.length + 1]? = some b := by rw [h]; simp
    have ha' : l[p'.length]? = some a' := by rw [h']; simp
    have hb' : l[p'.length + 1]? = some b' := by rw [h']; simp
    have ha : l[p.length]? = some a := by rw [h]; simp
    obtain ⟨i1, e1⟩ := List.getElem?_eq_some_iff.1 hb
    obtain ⟨i2, e2⟩ := List.getElem?_eq_some_iff.1 ha'
    obtain ⟨i3, e3⟩ := List.getElem?_eq_some_iff.1 ha
    have hab : a.stamp < b.stamp := by
      rw [← e1, ← e3]; exact List.pairwise_iff_getElem.1 ho _ _ i3 i1 (by omega)
    have heq : p.length + 1 = p'.length := by
      by_contra hne
      have := List.pairwise_iff_getElem.1 ho _ _ i1 i2 (by omega)
      rw [e1, e2] at this
      omega
    have hba : b = a' := by
      rw [heq, ha'] at hb
      exact (Option.some.inj hb).symm
    subst hba
    unfold nearer
    rw [if_neg (by omega), if_pos (by omega)]
  rcases Nat.lt_trichotomy p.length p'.length with hlt | heq | hgt
  · exact key h h' h2 h1' h2' hlt
  · rw [h] at h'
    obtain ⟨e1, e2⟩ := List.cons.inj (List.append_inj h' heq).2
    rw [e1, (List.cons.inj e2).1]
  · exact (key h' h h2' h1 h2 hgt).symm

/-- The covariances of an interpolated measurement are those of the nearer neighbour. -/
theorem interpolated_nearer {Q : Type} [DecidableEq Q] [LinearOrder K] [IsStrictOrderedRing K] (zeroQ : Q)
    (slerp : K → Q → Q → Q) (l : List (Stamped (ImuData K Q))) (ho : StrictlyOrdered l) {t : Int} {m : Stamped (ImuData K Q)}
    (h : interpolatedImu (interpolateImu zeroQ slerp) l t = .ok m) :
    ∃ before a b after, l = before ++ a :: b :: after ∧ a.stamp ≤ t ∧ t ≤ b.stamp ∧
      m.data.linearAccelerationCov = (nearer a b t).data.linearAccelerationCov ∧
      m.data.angularVelocityCov = (nearer a b t).data.angularVelocityCov := by
  match l, ho, h with
  | a :: b :: rest, ho, h =>
    unfold interpolatedImu at h
    dsimp only at h
    split at h
    · simp at h
    · rename_i hc
      obtain ⟨p, x, y, q, h1, h2, h3, h4⟩ := interpSearch_spec (interpolateImu zeroQ slerp) t a (b :: rest) (by omega)
        ⟨_, List.getLast_mem (by simp), by omega⟩
      rw [h4] at h
      refine ⟨p, x, y, q, h1, h2, h3, ?_⟩
      have hxy : x.stamp < y.stamp := by
        rw [h1] at ho
        exact (List.pairwise_cons.1 (List.pairwise_append.1 ho).2.1).1 y (by simp)
      unfold interpolateImu at h
      rw [if_neg (by omega), if_neg (by omega)] at h
      obtain rfl := Outcome.ok.inj h
      have hiff : (((t - x.stamp : Int) : K) / ((y.stamp - x.stamp : Int) : K)) ≤ 1 / 2 ↔ t - x.stamp ≤ y.stamp - t := by
        have hpos : (0 : K) < ((y.stamp - x.stamp : Int) : K) := Int.cast_pos.2 (by omega)
        rw [div_le_div_iff₀ hpos (by norm_num), one_mul]
        have : (((t - x.stamp : Int) : K) * 2 ≤ ((y.stamp - x.stamp : Int) : K)) ↔
            ((((t - x.stamp) * 2 : Int) : K) ≤ ((y.stamp - x.stamp : Int) : K)) := by push_cast; rfl
        rw [this, Int.cast_le]
        omega
      unfold nearer
      by_cases hs : t - x.stamp ≤ y.stamp - t
      · simp only [if_pos hs, if_pos (hiff.2 hs), and_self]
      · simp only [if_neg hs, if_neg (fun h => hs (hiff.1 h)), and_self]

/-- Receiving biases fails exactly when no measurement from the time of their state on has been received, or the covariances at
that time are not valid. -/
theorem optimisedA_fails {Q : Type} [DecidableEq Q] [LinearOrder K] [IsStrictOrderedRing K] {zeroQ : Q} {slerp : K → Q → Q → Q}
    {valid : (Fin 3 → Fin 3 → K) → (Fin 3 → Fin 3 → K) → Bool} (cfg : Cfg (ImuData K Q) K)
    (hcfg : cfg.interp = interpolateImu zeroQ slerp)
    (hv : ∀ m, cfg.validImu m = valid m.data.linearAccelerationCov m.data.angularVelocityCov) (s : FE (ImuData K Q) K)
    (hr : Reach cfg s) {t : Int} (ht : t ∈ s.ghost.states) (hb : s.biasStamp < t) :
    (optimisedA cfg t s).1 ≠ .ub ∧
    ((optimisedA cfg t s).1 = .throws ↔ (∀ x ∈ s.ghost.imu, x.stamp < t) ∨ InvalidAt valid s.ghost.imu t) := by
  have hii := ii cfg s hr
  have hle := prev_le cfg s hr ht hb
  have hne : s.ghost.states ≠ [] := fun h => by rw [h] at ht; simp at ht
  have h2l := two_buffered cfg s hr hne
  obtain ⟨first, hf, hfs⟩ := hii.front hne
  have hso : StrictlyOrdered s.imuBuffer := hii.ordered.sublist hii.suffix.sublist
  have hord : Ordered s.imuBuffer := hso.imp (fun h => le_of_lt h)
  obtain ⟨pre, hpre⟩ := hii.suffix
  obtain ⟨h1, h2, -⟩ := C27_interpolated zeroQ slerp s.imuBuffer hord t
  obtain ⟨y, rest, hbuf⟩ : ∃ y rest, s.imuBuffer = first :: y :: rest := by
    match hl : s.imuBuffer, h2l, hf with
    | a :: b :: c, _, hf => exact ⟨b, c, by rw [List.head?_cons] at hf; rw [Option.some.inj hf]⟩
  have hthrow : interpolatedImu (interpolateImu zeroQ slerp) s.imuBuffer t = .throws ↔ ∀ x ∈ s.ghost.imu, x.stamp < t := by
    rw [h1]
    constructor
    · intro h x hx
      by_contra hc
      refine h ⟨first, y, rest, hbuf, by omega, ?_⟩
      have hfy : first.stamp < y.stamp := by rw [hbuf] at hso; exact (List.pairwise_cons.1 hso).1 y (by simp)
      have ho := hii.ordered
      rw [← hpre, hbuf] at ho
      rw [← hpre, hbuf] at hx
      rcases List.mem_append.1 hx with hx | hx
      · have := (List.pairwise_append.1 ho).2.2 x hx first (by simp)
        exact ⟨y, by simp, by omega⟩
      · rcases List.mem_cons.1 hx with rfl | hx
        · exact ⟨y, by simp, by omega⟩
        · exact ⟨x, hx, by omega⟩
    · rintro h ⟨a, b, c, e, _, z, hz, hle'⟩
      have := h z (by rw [← hpre, e]; exact List.mem_append_right _ (List.mem_cons_of_mem _ hz))
      omega
  unfold optimisedA
  dsimp only
  rw [hcfg]
  cases hint : interpolatedImu (interpolateImu zeroQ slerp) s.imuBuffer t with
  | ub => exact absurd hint h2
  | throws => exact ⟨by simp, by simp only [true_iff]; exact .inl (hthrow.1 hint)⟩
  | ok m =>
    have hno : ¬ ∀ x ∈ s.ghost.imu, x.stamp < t := fun h => by rw [hthrow.2 h] at hint; simp at hint
    obtain ⟨p, a, b, q, e1, e2, e3, e4, e5⟩ := interpolated_nearer zeroQ slerp s.imuBuffer hso hint
    have hinv : InvalidAt valid s.ghost.imu t ↔ cfg.validImu m = false := by
      rw [hv, e4, e5]
      constructor
      · rintro ⟨p', a', b', q', g1, g2, g3, g4⟩
        rw [nearer_unique hii.ordered (p := pre ++ p) (q := q) (by rw [← hpre, e1]; simp) g1 e2 e3 g2 g3]
        exact g4
      · intro h
        exact ⟨pre ++ p, a, b, q, by rw [← hpre, e1]; simp, e2, e3, h⟩
    dsimp only
    cases hvm : cfg.validImu m with
    | true => simp [hno, hinv, hvm]
    | false => simp [hinv, hvm]

/-- The first state. -/
theorem publishInitial_fails {Q : Type} [DecidableEq Q] [LinearOrder K] [IsStrictOrderedRing K] {zeroQ : Q}
    {slerp : K → Q → Q → Q} (cfg : Cfg (ImuData K Q) K) (hcfg : cfg.interp = interpolateImu zeroQ slerp) (s : FE (ImuData K Q) K)
    (hr : Reach cfg s) {msg : Cloud} {t : Int} (hp : s.phase = .init msg t) :
    (publishInitial cfg msg t s).1 ≠ .ub ∧
    ((publishInitial cfg msg t s).1 = .throws ↔ (∀ x ∈ s.ghost.imu, t < x.stamp) ∨ s.ghost.imu.length < 2) := by
  have hci := ci cfg s hr
  have hii := ii cfg s hr
  have hdi := di cfg s hr
  have hpo := hci.phaseOk
  rw [hp] at hpo
  obtain ⟨cs, prev, e1, e2, e3, e4, e5, e6, _⟩ := hpo
  have hbuf := hdi.all e5
  have hlast := hdi.first msg t hp
  have hso : StrictlyOrdered s.ghost.imu := hii.ordered
  have hord : Ordered s.ghost.imu := hso.imp (fun h => le_of_lt h)
  obtain ⟨h1, h2, -⟩ := C27_interpolated zeroQ slerp s.ghost.imu hord t
  have hthrow : interpolatedImu (interpolateImu zeroQ slerp) s.ghost.imu t = .throws ↔
      (∀ x ∈ s.ghost.imu, t < x.stamp) ∨ s.ghost.imu.length < 2 := by
    rw [h1]
    constructor
    · intro h
      match hl : s.ghost.imu with
      | [] => right; simp
      | [_] => right; simp
      | x :: y :: rest =>
        left
        have hx : t < x.stamp := by
          by_contra hc
          refine h ⟨x, y, rest, hl, by omega, (y :: rest).getLast (by simp), List.getLast_mem (by simp), ?_⟩
          rw [hl, lastStamp, List.getLast?_cons_cons, List.getLast?_eq_getLast_of_ne_nil (by simp)] at hlast
          exact hlast
        intro z hz
        rw [hl] at hso
        rcases List.mem_cons.1 hz with rfl | hz
        · exact hx
        · have := (List.pairwise_cons.1 hso).1 z hz; omega
    · rintro (h | h) ⟨x, y, rest, e, hx, _⟩
      · have := h x (by rw [e]; simp); omega
      · rw [e] at h; simp at h; omega
  unfold publishInitial
  rw [hcfg, hbuf]
  cases hint : interpolatedImu (interpolateImu zeroQ slerp) s.ghost.imu t with
  | ub => exact absurd hint h2
  | throws => exact ⟨by simp, by simp only [true_iff]; exact hthrow.1 hint⟩
  | ok m => exact ⟨by simp, by simp only [reduceCtorEq, false_iff]; intro h; rw [hthrow.2 h] at hint; simp at hint⟩

omit [Field K] in
/-- Integration over an interval that starts not before the first measurement and ends not after the last one. -/
theorem integrate_fails (strict : Bool) (l : List (Stamped A)) (start stop : Int) (ho : StrictlyOrdered l)
    (hss : start ≤ stop) (hl : stop ≤ lastStamp l) :
    integrateImu (record strict) l start stop [] ≠ .ub ∧
    (integrateImu (record strict) l start stop [] = .throws ↔
      start < stop ∧ ((∀ m ∈ l, start < m.stamp) ∨ strict = true ∧ ∃ m ∈ l, m.stamp = stop)) := by
  have hshort : start < stop → l.length < 2 → ∀ m ∈ l, start < m.stamp := by
    intro h hlen m hm
    match l, hlen, hm with
    | [x], _, hm =>
      obtain rfl : m = x := by simpa using hm
      simp [lastStamp] at hl; omega
  have hhead : (∃ m, l.head? = some m ∧ start < m.stamp) → ∀ m ∈ l, start < m.stamp := by
    rintro ⟨m, hm, hlt⟩ x hx
    match l, ho, hm, hx with
    | y :: rest, ho, hm, hx =>
      obtain rfl : y = m := by simpa using hm
      rcases List.mem_cons.1 hx with rfl | hx
      · exact hlt
      · have := (List.pairwise_cons.1 ho).1 x hx; omega
  have hall : (∀ m ∈ l, start < m.stamp) → l.length < 2 ∨ ∃ m, l.head? = some m ∧ start < m.stamp := by
    intro h
    match l, h with
    | [], _ => left; simp
    | x :: rest, h => exact .inr ⟨x, rfl, h x (by simp)⟩
  have hiff : integrateImu (record strict) l start stop [] = .throws ↔
      start < stop ∧ ((∀ m ∈ l, start < m.stamp) ∨ strict = true ∧ ∃ m ∈ l, m.stamp = stop) := by
    cases strict with
    | false =>
      rw [(C28_throws_iff l start stop (ho.imp (fun h => le_of_lt h)) hss).1]
      constructor
      · rintro ⟨h1, h2 | h2⟩
        · exact ⟨by omega, .inl (hshort (by omega) h2)⟩
        · exact ⟨by omega, .inl (hhead h2)⟩
      · rintro ⟨h1, h2 | ⟨h2, _⟩⟩
        · exact ⟨by omega, hall h2⟩
        · simp at h2
    | true =>
      rw [(C28_strict_iff l start stop ho hss).1]
      constructor
      · rintro ⟨h1, h2 | h2 | h2⟩
        · exact ⟨by omega, .inl (hshort (by omega) h2)⟩
        · exact ⟨by omega, .inl (hhead h2)⟩
        · exact ⟨by omega, .inr ⟨rfl, h2⟩⟩
      · rintro ⟨h1, h2 | ⟨_, h2⟩⟩
        · refine ⟨by omega, ?_⟩
          rcases hall h2 with h | h
          · exact .inl h
          · exact .inr (.inl h)
        · exact ⟨by omega, .inr (.inr h2)⟩
  refine ⟨?_, hiff⟩
  intro hub
  by_cases he : start = stop
  · subst he; rw [C28_nothing] at hub; simp at hub
  · have hnt : integrateImu (record strict) l start stop [] ≠ .throws := by rw [hub]; simp
    cases strict with
    | false => rw [(C28_throws_iff l start stop (ho.imp (fun h => le_of_lt h)) hss).2 hnt he] at hub; simp at hub
    | true => rw [(C28_strict_iff l start stop ho hss).2 hnt he] at hub; simp at hub

/-- Deskewing. -/
theorem deskewCloud_fails (cfg : Cfg A K) (s : FE A K) (hr : Reach cfg s) {msg prev : Cloud} {t : Int}
    (hp : s.phase = .deskew msg t) (hc : s.prevCloud = some prev) (hsw : 0 ≤ prev.sweep) :
    (deskewCloud cfg msg prev t s).1 ≠ .ub ∧
    ((deskewCloud cfg msg prev t s).1 = .throws ↔
      (cfg.strict = true ∧ 2 ≤ s.ghost.states.length ∧ ∃ x ∈ s.ghost.imu, x.stamp = prev.start) ∨
      (cfg.strict = true ∧ 0 < prev.sweep ∧ ∃ x ∈ s.ghost.imu, x.stamp = prev.stop) ∨
      (s.ghost.states = [t] ∧ 0 < prev.sweep ∧ ∀ x ∈ s.ghost.imu, prev.start < x.stamp)) := by
  have hci := ci cfg s hr
  have hii := ii cfg s hr
  have hdi := di cfg s hr
  have hso : StrictlyOrdered s.imuBuffer := hii.ordered.sublist hii.suffix.sublist
  obtain ⟨prev', h1, hstop⟩ := hdi.sweep msg t hp
  rw [hc] at h1
  obtain rfl := Option.some.inj h1
  have hle : prev.start ≤ prev.stop := by unfold Cloud.stop; omega
  have hpo := hci.phaseOk
  rw [hp] at hpo
  obtain ⟨cs, prev', e1, e2, e3, e4⟩ := hpo
  rw [hc] at e1
  obtain rfl := Option.some.inj e1
  have hne : s.ghost.states ≠ [] := fun h => by rw [h] at e3; simp at e3
  have hb : s.imuBuffer ≠ [] := fun h => by have := two_buffered cfg s hr hne; rw [h] at this; simp at this
  obtain ⟨pre, hpre⟩ := hii.suffix
  have hlastb : lastStamp s.imuBuffer = lastStamp s.ghost.imu := by
    rw [← hpre]
    unfold lastStamp
    rw [List.getLast?_append]
    cases hg : s.imuBuffer.getLast? with
    | none => exact absurd (List.getLast?_eq_none_iff.1 hg) hb
    | some x => rfl
  obtain ⟨first, hf, hfs⟩ := hii.front hne
  have hfirst : first ∈ s.imuBuffer := List.mem_of_mem_head? hf
  have hin : ∀ x ∈ s.ghost.imu, first.stamp < x.stamp → x ∈ s.imuBuffer := by
    intro x hx hlt
    rw [← hpre] at hx
    rcases List.mem_append.1 hx with hx | hx
    · have ho := hii.ordered
      rw [← hpre] at ho
      have := (List.pairwise_append.1 ho).2.2 x hx first hfirst
      omega
    · exact hx
  have hsub : ∀ x ∈ s.imuBuffer, x ∈ s.ghost.imu := fun x hx => hii.suffix.subset hx
  obtain ⟨f1, f2⟩ := integrate_fails cfg.strict s.imuBuffer prev.start prev.stop hso hle (by rw [hlastb]; exact hstop)
  have hsweep : prev.start < prev.stop ↔ 0 < prev.sweep := by unfold Cloud.stop; omega
  rw [hsweep] at f2
  unfold deskewCloud
  dsimp only
  by_cases hinit : s.initialised = true
  · rw [if_pos hinit]
    rw [if_pos hinit] at e4
    obtain ⟨ss, e4⟩ := e4
    have hlt : s.prevState < prev.start := by
      have hlen : cs.length = ss.length + 1 := by rw [e4] at e3; simp at e3; omega
      obtain ⟨c, d, _, q2, _, q4⟩ := hci.placed ss.length s.prevState (by rw [e4]; simp)
      rw [e2, ← hlen] at q2
      have : d = prev := by simpa using q2.symm
      rw [← this]; exact q4
    obtain ⟨g1, g2⟩ := integrate_fails cfg.strict s.imuBuffer s.prevState prev.start hso (le_of_lt hlt)
      (by rw [hlastb]; omega)
    have hno1 : ¬ ∀ m ∈ s.imuBuffer, s.prevState < m.stamp := fun h => by have := h first hfirst; omega
    have hno2 : ¬ ∀ m ∈ s.imuBuffer, prev.start < m.stamp := fun h => by have := h first hfirst; omega
    have hlen : 2 ≤ s.ghost.states.length := by rw [e4]; simp
    have hnot : s.ghost.states ≠ [t] := fun h => by rw [h] at hlen; simp at hlen
    have m1 : (∃ m ∈ s.imuBuffer, m.stamp = prev.start) ↔ ∃ x ∈ s.ghost.imu, x.stamp = prev.start :=
      ⟨fun ⟨m, hm, e⟩ => ⟨m, hsub m hm, e⟩, fun ⟨m, hm, e⟩ => ⟨m, hin m hm (by omega), e⟩⟩
    have m2 : (∃ m ∈ s.imuBuffer, m.stamp = prev.stop) ↔ ∃ x ∈ s.ghost.imu, x.stamp = prev.stop :=
      ⟨fun ⟨m, hm, e⟩ => ⟨m, hsub m hm, e⟩, fun ⟨m, hm, e⟩ => ⟨m, hin m hm (by omega), e⟩⟩
    simp only [hlt, hno1, false_or, true_and, m1] at g2
    simp only [hno2, false_or, m2] at f2
    simp only [hnot, false_and, or_false, hlen, true_and]
    cases hi1 : integrateImu (record cfg.strict) s.imuBuffer s.prevState prev.start [] with
    | ub => exact absurd hi1 g1
    | throws => exact ⟨by simp, by simp only [true_iff]; exact .inl (g2.1 hi1)⟩
    | ok p =>
      dsimp only
      have hn1 : ¬ (cfg.strict = true ∧ ∃ x ∈ s.ghost.imu, x.stamp = prev.start) := fun h => by
        rw [g2.2 h] at hi1; simp at hi1
      cases hi2 : integrateImu (record cfg.strict) s.imuBuffer prev.start prev.stop [] with
      | ub => exact absurd hi2 f1
      | throws =>
        obtain ⟨z1, z2, z3⟩ := f2.1 hi2
        exact ⟨by simp, by simp only [true_iff]; exact .inr ⟨z2, z1, z3⟩⟩
      | ok p' =>
        refine ⟨by simp, ?_⟩
        simp only [reduceCtorEq, false_iff]
        rintro (h | ⟨z2, z1, z3⟩)
        · exact hn1 h
        · rw [f2.2 ⟨z1, z2, z3⟩] at hi2; simp at hi2
  · rw [if_neg hinit]
    rw [if_neg hinit] at e4
    have hbuf := hdi.all (by simpa using hinit)
    rw [hbuf] at f1 f2
    have hlen : ¬ 2 ≤ s.ghost.states.length := by rw [e4.1]; simp
    rw [hbuf]
    simp only [e4.1, List.length_singleton, true_and]
    cases hi2 : integrateImu (record cfg.strict) s.ghost.imu prev.start prev.stop [] with
    | ub => exact absurd hi2 f1
    | throws =>
      obtain ⟨z1, z2⟩ := f2.1 hi2
      refine ⟨by simp, ?_⟩
      simp only [true_iff]
      rcases z2 with z2 | ⟨z2, z3⟩
      · exact .inr (.inr ⟨z1, z2⟩)
      · exact .inr (.inl ⟨z2, z1, z3⟩)
    | ok p' =>
      refine ⟨by simp, ?_⟩
      simp only [reduceCtorEq, false_iff]
      rintro (⟨_, h, _⟩ | ⟨z2, z1, z3⟩ | ⟨z1, z2⟩)
      · omega
      · rw [f2.2 ⟨z1, .inr ⟨z2, z3⟩⟩] at hi2; simp at hi2
      · rw [f2.2 ⟨z1, .inl z2⟩] at hi2; simp at hi2

/-- The end of the pointcloud callback. -/
theorem finishCloud_fails [LinearOrder K] [IsStrictOrderedRing K] (cfg : Cfg A K) (s : FE A K) (hr : Reach cfg s) (msg : Cloud)
    (t : Int) :
    (finishCloud cfg msg t s).1 ≠ .throws ∧ ((finishCloud cfg msg t s).1 = .ub ↔ cfg.baro = true ∧ s.ghost.baro = []) := by
  have hb := bi cfg s hr
  by_cases hne : s.ghost.baro = []
  · by_cases hon : cfg.baro = true
    · have hbuf : s.baroBuffer = [] := by
        have := hb.suffix
        rw [hne] at this
        exact List.suffix_nil.1 this
      unfold finishCloud
      dsimp only
      rw [if_pos hon]
      cases hbt : s.baroTimes with
      | nil => simp [tryPublish, hbuf, hon, hne]
      | cons a l => simp [tryPublish, hbuf, hon, hne]
    · unfold finishCloud
      simp [hon]
  · rw [(C24_never_fails_partial cfg s hr).2 msg t hne]
    simp [hne]

/-- C132. The failures of the front end, completely: from any reachable state, with sensors and back end as assumed, a section
has undefined behaviour, or ends with an exception, exactly in the listed situations; in all others it completes. -/
theorem C132_failures {Q : Type} [DecidableEq Q] [LinearOrder K] [IsStrictOrderedRing K] {zeroQ : Q} {slerp : K → Q → Q → Q}
    {valid : (Fin 3 → Fin 3 → K) → (Fin 3 → Fin 3 → K) → Bool} (cfg : Cfg (ImuData K Q) K)
    (hcfg : cfg.interp = interpolateImu zeroQ slerp)
    (hv : ∀ m, cfg.validImu m = valid m.data.linearAccelerationCov m.data.angularVelocityCov) (s s' : FE (ImuData K Q) K)
    (hr : Reach cfg s) (ev : Ev (ImuData K Q) K) (ha : Admissible ev s) (hsw : ∀ c ∈ s.ghost.clouds, 0 ≤ c.sweep)
    {o : Outcome Unit} (hs : step cfg ev s = some (o, s')) :
    (o = .ub ↔ Undefined cfg s ev) ∧ (o = .throws ↔ Refused valid cfg s ev) := by
  have hci := ci cfg s hr
  have hii := ii cfg s hr
  have hso : StrictlyOrdered s.imuBuffer := hii.ordered.sublist hii.suffix.sublist
  cases ev with
  | imu m =>
    have h := C26_never_fails cfg s hr m ha
    unfold step at hs
    dsimp only at hs
    split at hs
    · simp at hs
    · have : (imuCallback cfg m s).1 = o := by rw [Option.some.inj hs]
      rw [h] at this
      subst this
      exact ⟨⟨by simp, by rintro ⟨⟩⟩, ⟨by simp, by rintro ⟨⟩⟩⟩
  | optimisedA t =>
    unfold step at hs
    dsimp only at hs
    split at hs
    · simp at hs
    · have he : (optimisedA cfg t s).1 = o := by rw [Option.some.inj hs]
      obtain ⟨h1, h2⟩ := optimisedA_fails cfg hcfg hv s hr ha.1 ha.2
      rw [he] at h1 h2
      refine ⟨⟨fun h => absurd h h1, by rintro ⟨⟩⟩, ?_⟩
      rw [h2]
      constructor
      · rintro (h | h)
        · exact .early h
        · exact .covariance h
      · intro h
        cases h with
        | early h => exact .inl h
        | covariance h => exact .inr h
  | optimisedB =>
    unfold step at hs
    dsimp only at hs
    split at hs
    · have he : (optimisedB cfg s).1 = o := by rw [Option.some.inj hs]
      unfold optimisedB at he
      rw [reintegrate_eq _ _ hso] at he
      dsimp only at he
      subst he
      exact ⟨⟨by simp, by rintro ⟨⟩⟩, ⟨by simp, by rintro ⟨⟩⟩⟩
    · simp at hs
  | barometer p =>
    unfold step at hs
    dsimp only at hs
    split at hs
    · have he : (baroCallback cfg p s).1 = o := by rw [Option.some.inj hs]
      rw [(C24_never_fails_partial cfg s hr).1 p ha] at he
      subst he
      exact ⟨⟨by simp, by rintro ⟨⟩⟩, ⟨by simp, by rintro ⟨⟩⟩⟩
    · simp at hs
  | stereo t =>
    unfold step at hs
    dsimp only at hs
    split at hs
    · have he : (stereoCallback cfg t s).1 = o := by rw [Option.some.inj hs]
      unfold stereoCallback at he
      subst he
      exact ⟨⟨by simp, by rintro ⟨⟩⟩, ⟨by simp, by rintro ⟨⟩⟩⟩
    · simp at hs
  | cloud msg =>
    unfold step at hs
    dsimp only at hs
    split at hs
    · have he : (cloudArrives msg s).1 = o := by rw [Option.some.inj hs]
      unfold cloudArrives at he
      by_cases hem : msg.empty = true
      · rw [if_pos hem] at he
        subst he
        exact ⟨⟨by simp, by rintro ⟨⟩⟩, ⟨fun _ => .emptyCloud hem, fun _ => rfl⟩⟩
      · rw [if_neg hem] at he
        have hok : o = .ok () := by
          rw [← he]
          cases s.prevCloud <;> rfl
        subst hok
        refine ⟨⟨by simp, by rintro ⟨⟩⟩, ⟨by simp, fun h => ?_⟩⟩
        cases h with
        | emptyCloud h => exact absurd h hem
    · simp at hs
  | go =>
    have hpo := hci.phaseOk
    unfold step at hs
    dsimp only at hs
    unfold goStep at hs
    cases hp : s.phase with
    | idle => rw [hp] at hs; simp at hs
    | select msg =>
      rw [hp] at hpo
      obtain ⟨cs, prev, e1, _⟩ := hpo
      rw [hp, e1] at hs
      dsimp only at hs
      have he : (selectState cfg msg prev s).1 = o := by rw [Option.some.inj hs]
      have hok : o = .ok () := by
        rw [← he]
        unfold selectState
        split
        · split
          · rfl
          · split <;> rfl
        · rfl
      subst hok
      refine ⟨⟨by simp, fun h => ?_⟩, ⟨by simp, fun h => ?_⟩⟩ <;> cases h <;> simp_all
    | imu msg t =>
      rw [hp] at hpo
      obtain ⟨cs, prev, e1, _, _, e4, _⟩ := hpo
      rw [hp, e1] at hs
      dsimp only at hs
      by_cases hin : s.initialised = true
      · rw [if_pos hin] at hs e4
        have he : (publishS2s msg t s).1 = o := by rw [Option.some.inj hs]
        obtain ⟨h1, h2⟩ := C25_failure_iff_partial cfg s hr hp hin
        rw [he] at h1 h2
        refine ⟨?_, ⟨fun h => absurd h h1, fun h => ?_⟩⟩
        · rw [h2]
          constructor
          · exact fun h => .noMeasurement hp e4 h
          · intro h
            cases h with
            | noMeasurement q1 q2 q3 =>
              rw [e4] at q2
              rw [Option.some.inj q2]; exact q3
            | noBarometer q1 _ _ => rw [hp] at q1; simp at q1
        · cases h <;> simp_all
      · rw [if_neg hin] at hs e4
        split at hs
        · simp at hs
        · obtain ⟨rfl, _⟩ := Prod.mk.inj (Option.some.inj hs)
          refine ⟨⟨by simp, fun h => ?_⟩, ⟨by simp, fun h => ?_⟩⟩ <;> cases h <;> simp_all
    | init msg t =>
      rw [hp] at hpo
      obtain ⟨cs, prev, e1, _⟩ := hpo
      rw [hp, e1] at hs
      dsimp only at hs
      have he : (publishInitial cfg msg t s).1 = o := by rw [Option.some.inj hs]
      obtain ⟨h1, h2⟩ := publishInitial_fails cfg hcfg s hr hp
      rw [he] at h1 h2
      refine ⟨⟨fun h => absurd h h1, fun h => by cases h <;> simp_all⟩, ?_⟩
      rw [h2]
      constructor
      · rintro (h | h)
        · exact .lateStart hp h
        · exact .single hp h
      · intro h
        cases h with
        | lateStart q1 q2 =>
          rw [hp] at q1
          obtain ⟨_, rfl⟩ := Phase.init.inj q1
          exact .inl q2
        | single q1 q2 => exact .inr q2
        | atStart q1 => rw [hp] at q1; simp at q1
        | atEnd q1 => rw [hp] at q1; simp at q1
        | firstSweep q1 => rw [hp] at q1; simp at q1
    | bias msg t =>
      rw [hp] at hpo
      obtain ⟨cs, prev, e1, _⟩ := hpo
      rw [hp, e1] at hs
      dsimp only at hs
      split at hs
      · simp at hs
      · obtain ⟨rfl, _⟩ := Prod.mk.inj (Option.some.inj hs)
        refine ⟨⟨by simp, fun h => ?_⟩, ⟨by simp, fun h => ?_⟩⟩ <;> cases h <;> simp_all
    | deskew msg t =>
      rw [hp] at hpo
      obtain ⟨cs, prev, e1, e2, _⟩ := hpo
      rw [hp, e1] at hs
      dsimp only at hs
      have he : (deskewCloud cfg msg prev t s).1 = o := by rw [Option.some.inj hs]
      obtain ⟨h1, h2⟩ := deskewCloud_fails cfg s hr hp e1 (hsw prev (by rw [e2]; simp))
      rw [he] at h1 h2
      refine ⟨⟨fun h => absurd h h1, fun h => by cases h <;> simp_all⟩, ?_⟩
      rw [h2]
      constructor
      · rintro (⟨q1, q2, x, q3, q4⟩ | ⟨q1, q2, x, q3, q4⟩ | ⟨q1, q2, q3⟩)
        · exact .atStart hp e1 q1 q2 q3 q4
        · exact .atEnd hp e1 q1 q2 q3 q4
        · exact .firstSweep hp e1 q1 q2 q3
      · intro h
        cases h with
        | lateStart q1 => rw [hp] at q1; simp at q1
        | single q1 => rw [hp] at q1; simp at q1
        | atStart q1 q2 q3 q4 q5 q6 =>
          rw [e1] at q2; obtain rfl := Option.some.inj q2
          exact .inl ⟨q3, q4, _, q5, q6⟩
        | atEnd q1 q2 q3 q4 q5 q6 =>
          rw [e1] at q2; obtain rfl := Option.some.inj q2
          exact .inr (.inl ⟨q3, q4, _, q5, q6⟩)
        | firstSweep q1 q2 q3 q4 q5 =>
          rw [e1] at q2; obtain rfl := Option.some.inj q2
          rw [hp] at q1
          obtain ⟨_, rfl⟩ := Phase.deskew.inj q1
          exact .inr (.inr ⟨q3, q4, q5⟩)
    | baro msg t =>
      rw [hp] at hpo
      obtain ⟨cs, prev, e1, _⟩ := hpo
      rw [hp, e1] at hs
      dsimp only at hs
      have he : (finishCloud cfg msg t s).1 = o := by rw [Option.some.inj hs]
      obtain ⟨h1, h2⟩ := finishCloud_fails cfg s hr msg t
      rw [he] at h1 h2
      refine ⟨?_, ⟨fun h => absurd h h1, fun h => by cases h <;> simp_all⟩⟩
      rw [h2]
      constructor
      · rintro ⟨q1, q2⟩; exact .noBarometer hp q1 q2
      · intro h
        cases h with
        | noMeasurement q1 => rw [hp] at q1; simp at q1
        | noBarometer _ q1 q2 => exact ⟨q1, q2⟩

/-! ### Runs -/

/-- The configuration of the runs: no orientations; a covariance is valid if its first element is positive. -/
def failCfg : Cfg (ImuData ℚ Unit) ℚ :=
  { stereo := true, onlyGraphFrames := true, baro := true, interp := interpolateImu () (fun _ _ _ => ()),
    validImu := fun m => decide (0 < m.data.linearAccelerationCov 0 0) && decide (0 < m.data.angularVelocityCov 0 0) }

def failValid (a g : Fin 3 → Fin 3 → ℚ) : Bool := decide (0 < a 0 0) && decide (0 < g 0 0)

def failImu (t : Int) (cov : ℚ) : Ev (ImuData ℚ Unit) ℚ :=
  .imu ⟨t * 1000, ⟨(), fun _ => 0, fun _ => 0, fun _ _ => 0, fun _ _ => 1, fun _ _ => cov, "imu"⟩⟩

def failBaro (t : Int) : Ev (ImuData ℚ Unit) ℚ := .barometer { stamp := t * 1000, frame := "b", pressure := 10, variance := 1 }

/-- The outcome of `ev` after the run `evs` (`none`: not a run). -/
def failThen (evs : List (Ev (ImuData ℚ Unit) ℚ)) (ev : Ev (ImuData ℚ Unit) ℚ) : Option (Outcome Unit) :=
  (runEvs failCfg evs {}).bind (fun s => if Admissible ev s then (step failCfg ev s).map (fun r => r.1) else none)

/-- Up to the first state, at 112 ms, whose biases are not yet known; `cov` is the covariance of the measurement at 110 ms. -/
def failStart (cov : ℚ) : List (Ev (ImuData ℚ Unit) ℚ) :=
  [failBaro 90, failImu 100 1, failImu 110 cov, .cloud { usec := 111, sweep := 5000 }, .stereo 112345, failImu 120 1,
    .cloud { usec := 121, sweep := 5000 }, .go, .go, .go]

/-- Up to the second state, at 121 ms. -/
def failSecond : List (Ev (ImuData ℚ Unit) ℚ) :=
  failStart 1 ++ [.optimisedA 112000, .optimisedB, .go, .go, .go, .stereo 125000, .cloud { usec := 131, sweep := 5000 }, .go, .go]

theorem failThen_spec {evs : List (Ev (ImuData ℚ Unit) ℚ)} {ev : Ev (ImuData ℚ Unit) ℚ} {o : Outcome Unit}
    (h : failThen evs ev = some o) : ∃ s s', Reach failCfg s ∧ Admissible ev s ∧ step failCfg ev s = some (o, s') ∧
      runEvs failCfg evs {} = some s := by
  unfold failThen at h
  cases hr : runEvs failCfg evs {} with
  | none => rw [hr] at h; simp at h
  | some s =>
    rw [hr] at h
    simp only [Option.bind_some] at h
    split at h
    · rename_i ha
      cases hs : step failCfg ev s with
      | none => rw [hs] at h; simp at h
      | some r =>
        rw [hs] at h
        have : r.1 = o := by simpa using h
        exact ⟨s, r.2, reach_run failCfg evs {} s .init hr, ha, by rw [hs, ← this], rfl⟩
    · simp at h

/-- C132 fails: the states after the first are sent without waiting for an IMU measurement of their time, so the back end's
answer can arrive before such a measurement, and the callback that should start the odometry from it ends with an exception,
although all covariances are valid. -/
theorem C132_fails_early_answer : ∃ s s', Reach failCfg s ∧ Admissible (.optimisedA 125000) s ∧
    step failCfg (.optimisedA 125000) s = some (.throws, s') ∧ (∀ x ∈ s.ghost.imu, x.stamp < 125000) ∧
    ∀ x ∈ s.ghost.imu, failCfg.validImu x = true := by
  have h : failThen failSecond (.optimisedA 125000) = some .throws := by decide +kernel
  obtain ⟨s, s', h1, h2, h3, h4⟩ := failThen_spec h
  have h5 : (runEvs failCfg failSecond {}).all (fun s => s.ghost.imu.all (fun x => decide (x.stamp < 125000))) = true := by
    decide +kernel
  have h6 : (runEvs failCfg failSecond {}).all (fun s => s.ghost.imu.all (fun x => failCfg.validImu x)) = true := by
    decide +kernel
  rw [h4] at h5 h6
  simp only [Option.all_some, List.all_eq_true, decide_eq_true_eq] at h5 h6
  exact ⟨s, s', h1, h2, h3, h5, h6⟩

/-- The configuration meets the hypotheses of `C132_failures`. -/
example : failCfg.interp = interpolateImu () (fun _ _ _ => ()) ∧
    ∀ m, failCfg.validImu m = failValid m.data.linearAccelerationCov m.data.angularVelocityCov := ⟨rfl, fun _ => rfl⟩

/-- A section that completes. -/
example : failThen (failStart 1) (.optimisedA 112000) = some (.ok ()) := by decide +kernel

/-- Covariances that are not valid. -/
example : failThen (failStart 0) (.optimisedA 112000) = some .throws := by decide +kernel

/-- An empty pointcloud. -/
example : failThen [failImu 100 1] (.cloud { usec := 111, sweep := 0, empty := true }) = some .throws := by decide +kernel

/-- A first state earlier than all measurements. -/
example : failThen [.cloud { usec := 111, sweep := 0 }, .stereo 112345, failImu 120 1, failImu 130 1, .cloud { usec := 121, sweep := 0 },
    .go, .go] .go = some .throws := by decide +kernel

/-- One measurement, at the time of the first state. -/
example : failThen [.cloud { usec := 111, sweep := 0 }, .stereo 112345, failImu 112 1, .cloud { usec := 121, sweep := 0 },
    .go, .go] .go = some .throws := by decide +kernel

/-- A measurement at the end of a sweep. -/
example : failThen [failImu 100 1, failImu 116 1, .cloud { usec := 111, sweep := 5000 }, .stereo 112345, failImu 120 1,
    .cloud { usec := 121, sweep := 0 }, .go, .go, .go, .optimisedA 112000, .optimisedB, .go] .go = some .throws := by decide +kernel

/-- A measurement at the start of a later sweep. -/
example : failThen (failStart 1 ++ [.optimisedA 112000, .optimisedB, .go, .go, .go, failImu 121 1, failImu 130 1, .stereo 125000,
    .cloud { usec := 131, sweep := 5000 }, .go, .go, .go]) .go = some .throws := by decide +kernel

/-- A first sweep that starts before all measurements. -/
example : failThen [failImu 112 1, failImu 115 1, .cloud { usec := 111, sweep := 5000 }, .stereo 113345, failImu 120 1,
    .cloud { usec := 121, sweep := 0 }, .go, .go, .go, .optimisedA 113000, .optimisedB, .go] .go = some .throws := by decide +kernel

/-- No measurement since the last state. -/
example : failThen [failBaro 90, failImu 100 1, failImu 112 1, .cloud { usec := 111, sweep := 0 }, .stereo 112345,
    .cloud { usec := 121, sweep := 0 }, .go, .go, .go, .optimisedA 112000, .optimisedB, .go, .go, .go, .stereo 135000,
    .cloud { usec := 131, sweep := 0 }, .go] .go = some .ub := by decide +kernel

/-- No barometer message. -/
example : failThen ((failStart 1).tail ++ [.optimisedA 112000, .optimisedB, .go, .go]) .go = some .ub := by decide +kernel

end
end FrontEnd

end Serpent
