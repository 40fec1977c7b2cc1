import Verif.Lemmas.FrontEnd

/-!
# Invariant of the IMU buffer and of the running integration
-/

namespace Serpent

namespace FrontEnd

open Utils

variable {A K : Type} [Field K]

/-- States for which the pointcloud callback has waited for the biases. -/
def settled (states : List Int) : Phase → List Int
  | .bias _ _ => states.dropLast.dropLast
  | _ => states.dropLast

/-- The stamp of the last measurement received. -/
def lastStamp (l : List (Stamped A)) : Int := (l.getLast?.map (fun x => x.stamp)).getD 0

/-- Measurements later than `t`. -/
def later (t : Int) (l : List (Stamped A)) : List (Stamped A) := l.filter (fun x => decide (t < x.stamp))

structure IInv (imu buffer : List (Stamped A)) (lastPreint : Int) (preint : Option (List (Stamped A × Int)))
    (biasStamp : Int) (busy : Bool) (states : List Int) (prevState : Int) (phase : Phase) : Prop where
  ordered : StrictlyOrdered imu
  pos : ∀ x ∈ imu, 0 < x.stamp
  suffix : buffer <:+ imu
  ne : imu ≠ [] → buffer ≠ []
  last : lastPreint = lastStamp imu
  busyOk : busy = true → biasStamp ∈ states ∧ ∃ first, buffer.head? = some first ∧ first.stamp ≤ biasStamp
  biasOk : biasStamp = 0 ∨ (0 < biasStamp ∧ biasStamp ≤ lastPreint)
  preOk : busy = false → preint = if biasStamp = 0 then none else some (steps biasStamp (later biasStamp imu))
  front : states ≠ [] → ∃ first, buffer.head? = some first ∧ first.stamp ≤ prevState
  done : ∀ t ∈ settled states phase, t ≤ biasStamp ∧ (busy = true → t < biasStamp)

abbrev II (s : FE A K) : Prop :=
  IInv s.ghost.imu s.imuBuffer s.lastPreint s.preint s.biasStamp s.optBusy s.ghost.states s.prevState s.phase

omit [Field K] in
theorem ordered_append {l : List (Stamped A)} {m : Stamped A} (h : StrictlyOrdered l)
    (hm : ∀ x ∈ l, x.stamp < m.stamp) : StrictlyOrdered (l ++ [m]) :=
  List.pairwise_append.2 ⟨h, by simp, fun a ha b hb => by
    have : b = m := by simpa using hb
    subst this; exact hm a ha⟩

omit [Field K] in
theorem lastStamp_mem {l : List (Stamped A)} (ho : StrictlyOrdered l) (x : Stamped A) (hx : x ∈ l) :
    x.stamp ≤ lastStamp l := by
  rcases List.eq_nil_or_concat l with rfl | ⟨l', m, rfl⟩
  · simp at hx
  · have hl : lastStamp (l' ++ [m]) = m.stamp := by simp [lastStamp]
    rw [List.concat_eq_append] at *
    rw [hl]
    rcases List.mem_append.1 hx with hx | hx
    · exact le_of_lt ((List.pairwise_append.1 ho).2.2 x hx m (by simp))
    · have : x = m := by simpa using hx
      subst this; exact le_refl _

omit [Field K] in
/-- The last measurement later than `t`, if any, is the last measurement. -/
theorem later_last {l : List (Stamped A)} (ho : StrictlyOrdered l) (t : Int) (h0 : 0 < t)
    (ht : t ≤ lastStamp l) : ((later t l).getLast?.map (fun x => x.stamp)).getD t = lastStamp l := by
  rcases List.eq_nil_or_concat l with rfl | ⟨l', m, rfl⟩
  · simp [lastStamp] at ht; omega
  · rw [List.concat_eq_append] at *
    have hl : lastStamp (l' ++ [m]) = m.stamp := by simp [lastStamp]
    rw [hl] at ht ⊢
    unfold later
    rw [List.filter_append]
    by_cases hm : t < m.stamp
    · simp [hm]
    · have : t = m.stamp := by omega
      subst this
      have : l'.filter (fun x => decide (m.stamp < x.stamp)) = [] := by
        rw [List.filter_eq_nil_iff]
        intro x hx
        have := (List.pairwise_append.1 ho).2.2 x hx m (by simp)
        simp; omega
      simp [this]

omit [Field K] in
theorem head?_append {l : List (Stamped A)} {first : Stamped A} (h : l.head? = some first) (l' : List (Stamped A)) :
    (l ++ l').head? = some first := by
  cases l with
  | nil => simp at h
  | cons x xs => simpa using h

omit [Field K] in
theorem ii_imu {s : FE A K} (h : II s) (m : Stamped A) (hb : s.optBusy = false) (h0 : 0 < m.stamp)
    (hm : ∀ x ∈ s.ghost.imu, x.stamp < m.stamp) (p' : Option (List (Stamped A × Int)))
    (hp : p' = if s.biasStamp = 0 then none else some (steps s.biasStamp (later s.biasStamp (s.ghost.imu ++ [m])))) :
    IInv (s.ghost.imu ++ [m]) (s.imuBuffer ++ [m]) m.stamp p' s.biasStamp s.optBusy s.ghost.states s.prevState
      s.phase := by
  refine ⟨ordered_append h.ordered hm, ?_, ?_, by simp, by simp [lastStamp], ?_, ?_, fun _ => hp, ?_, h.done⟩
  · intro x hx
    rcases List.mem_append.1 hx with hx | hx
    · exact h.pos x hx
    · have : x = m := by simpa using hx
      subst this; exact h0
  · obtain ⟨pre, hpre⟩ := h.suffix
    exact ⟨pre, by rw [← hpre]; simp⟩
  · intro hbusy; rw [hb] at hbusy; simp at hbusy
  · rcases h.biasOk with hz | ⟨h1, h2⟩
    · exact .inl hz
    · refine .inr ⟨h1, ?_⟩
      rw [h.last] at h2
      rcases List.eq_nil_or_concat s.ghost.imu with he | ⟨l', x, he⟩
      · rw [he] at h2; simp [lastStamp] at h2; omega
      · rw [List.concat_eq_append] at he
        have := hm x (by rw [he]; simp)
        rw [he] at h2; simp [lastStamp] at h2; omega
  · intro hs
    obtain ⟨f, h1, h2⟩ := h.front hs
    exact ⟨f, head?_append h1 _, h2⟩

omit [Field K] in
theorem later_append (t : Int) (l : List (Stamped A)) (m : Stamped A) (h : t < m.stamp) :
    later t (l ++ [m]) = later t l ++ [m] := by
  simp [later, h]

theorem ii_move (cfg : Cfg A K) (s s' : FE A K) (hc : CI s) (h : II s) (hm : Move cfg s s') : II s' := by
  cases hm with
  | imuQuiet m hb hp h0 hlt =>
    refine ii_imu h m hb h0 hlt _ ?_
    have := h.preOk hb
    rw [hp] at this
    split at this
    · rename_i hz; rw [hp, if_pos hz]
    · simp at this
  | imuOdometry m p hb hp h0 hlt =>
    refine ii_imu h m hb h0 hlt _ ?_
    have := h.preOk hb
    rw [hp] at this
    split at this
    · simp at this
    · rename_i hz
      rw [if_neg hz, Option.some.inj this]
      rcases h.biasOk with hz' | ⟨h1, h2⟩
      · exact absurd hz' hz
      · have hlt' : s.biasStamp < m.stamp := by
          rw [h.last] at h2
          rcases List.eq_nil_or_concat s.ghost.imu with he | ⟨l', x, he⟩
          · rw [he] at h2; simp [lastStamp] at h2; omega
          · rw [List.concat_eq_append] at he
            have := hlt x (by rw [he]; simp)
            rw [he] at h2; simp [lastStamp] at h2; omega
        rw [later_append _ _ _ hlt', steps_append, later_last h.ordered _ h1 (h.last ▸ h2), h.last]
        rfl
  | optimisedA t m hb ht hlt hi =>
    obtain ⟨first, rest, h1, h2, last, h3, h4⟩ := interpolatedImu_ok hi
    have h0 := hc.states_pos t ht
    refine ⟨h.ordered, h.pos, h.suffix, h.ne, h.last, fun _ => ⟨ht, first, by simp [h1], h2⟩, ?_, ?_, h.front, ?_⟩
    · right
      refine ⟨h0, ?_⟩
      rw [h.last]
      exact le_trans h4 (lastStamp_mem h.ordered last (h.suffix.subset (List.mem_of_getLast? h3)))
    · intro hb'; simp at hb'
    · intro u hu
      have := (h.done u hu).1
      exact ⟨by simp only; omega, fun _ => by simp only; omega⟩
  | optimisedB p last hb hr =>
    have hso : StrictlyOrdered s.imuBuffer := h.ordered.sublist h.suffix.sublist
    rw [reintegrate_eq _ _ hso] at hr
    obtain ⟨rfl, rfl⟩ := Prod.mk.inj (Outcome.ok.inj hr)
    obtain ⟨hbs, first, hf1, hf2⟩ := h.busyOk hb
    have h0 := hc.states_pos _ hbs
    have hl : later s.biasStamp s.ghost.imu = later s.biasStamp s.imuBuffer :=
      suffix_filter h.suffix h.ordered first hf1 s.biasStamp hf2
    have hle : s.biasStamp ≤ lastStamp s.ghost.imu := by
      rcases h.biasOk with hz | ⟨_, h2⟩
      · omega
      · rw [← h.last]; exact h2
    have hlast : (((s.imuBuffer.filter (fun x => decide (s.biasStamp < x.stamp))).getLast?.map
        (fun x => x.stamp)).getD s.biasStamp) = lastStamp s.ghost.imu := by
      have := later_last h.ordered s.biasStamp h0 hle
      rw [hl] at this
      exact this
    refine ⟨h.ordered, h.pos, h.suffix, h.ne, hlast, by simp, .inr ⟨h0, by rw [hlast]; exact hle⟩, ?_, h.front, ?_⟩
    · intro _
      rw [if_neg (by simp only; omega)]
      simp only [List.nil_append]
      rw [hl]; rfl
    · intro u hu
      exact ⟨(h.done u hu).1, by simp⟩
  | barometer p _ _ ht =>
    obtain ⟨bb, bt, ps, rfl, _⟩ := ht.frame
    exact h
  | stereoQuiet t _ _ => exact h
  | stereoSent t _ _ => exact h
  | cloudFirst msg hp hc' h0 hlt => exact h
  | cloudNext msg prev hp hc' h0 hlt =>
    have := h.done
    rw [hp] at this
    exact { h with done := this }
  | selectWait msg prev hp hc' _ _ => exact h
  | selectFrame msg prev f rest hp hc' _ hf hr hle hlt _ =>
    have := h.done
    rw [hp] at this
    have : II { s with stereoBuffer := rest, phase := .imu msg f } := { h with done := this }
    split
    · exact this
    · exact this
  | selectStart msg prev l hp hc' hl _ =>
    have := h.done
    rw [hp] at this
    exact { h with done := this }
  | s2s msg prev t first others m ms hp hc' hi hb hle hsel =>
    have hso : StrictlyOrdered s.imuBuffer := h.ordered.sublist h.suffix.sublist
    have hpo := hc.phaseOk
    rw [hp] at hpo
    obtain ⟨cs, prev', h1, h2, h3, h4, h5, h6, h7⟩ := hpo
    rw [hi, if_pos rfl, List.getLast?_eq_some_iff] at h4
    obtain ⟨ss, h4⟩ := h4
    have hinc : s.prevState < t := by
      have := (hc.append_state h2 h3 t h5 h6 h7).1.increasing hc.mono
      rw [h4] at this
      exact (List.pairwise_append.1 this).2.2 s.prevState (by simp) t (by simp)
    rcases selectImu_cases s.prevState t hinc s.imuBuffer (hso.imp (fun h => le_of_lt h)) first others hb hle with
      ⟨hu, _⟩ | ⟨before, f, after, e1, e2, e3, e4, e5⟩
    · rw [hu] at hsel; simp at hsel
    · rw [e5] at hsel
      obtain ⟨rfl, rfl⟩ := List.cons.inj (Outcome.ok.inj hsel)
      have hdel : deleteOld f.stamp s.imuBuffer = f :: after := by
        rw [e1]; exact deleteOld_split before f after (e1 ▸ hso)
      have hdone := h.done
      rw [hp] at hdone
      simp only [settled, h4, List.dropLast_concat] at hdone
      refine ⟨h.ordered, h.pos, ?_, ?_, h.last, ?_, h.biasOk, h.preOk, ?_, ?_⟩
      · simp only [FE.emit, hdel]
        obtain ⟨pre, hpre⟩ := h.suffix
        exact ⟨pre ++ before, by rw [← hpre, e1]; simp⟩
      · simp only [FE.emit, hdel]; simp
      · intro hbusy
        obtain ⟨q1, _⟩ := h.busyOk hbusy
        refine ⟨by simp only [FE.emit]; exact List.mem_append_left _ q1, f, by simp only [FE.emit, hdel]; simp, ?_⟩
        have : s.prevState ≤ s.biasStamp := by
          rw [h4] at q1
          rcases List.mem_append.1 q1 with q1 | q1
          · exact absurd ((hdone _ q1).2 hbusy) (lt_irrefl _)
          · have : s.biasStamp = s.prevState := by simpa using q1
            omega
        exact le_trans e3 this
      · intro _
        exact ⟨f, by simp only [FE.emit, hdel]; simp, e3⟩
      · simp only [FE.emit, settled, List.dropLast_concat, h4]
        exact hdone
  | initWait msg prev t hp hc' hi hwt =>
    have := h.done
    rw [hp] at this
    exact { h with done := this }
  | initial msg prev t m hp hc' hint =>
    obtain ⟨first, rest, e1, e2, last, e3, e4⟩ := interpolatedImu_ok hint
    have hpo := hc.phaseOk
    rw [hp] at hpo
    obtain ⟨cs, prev', h1, h2, h3, h4, hi, h5, h6, h7⟩ := hpo
    refine ⟨h.ordered, h.pos, h.suffix, h.ne, h.last, ?_, h.biasOk, h.preOk, ?_, ?_⟩
    · intro hbusy
      have := (h.busyOk hbusy).1
      rw [h4] at this; simp at this
    · intro _; exact ⟨first, by simp [FE.emit, e1], e2⟩
    · simp only [FE.emit, settled, h4]; simp
  | biasKnown msg prev t hp hc' hb hbs _ =>
    have hpo := hc.phaseOk
    rw [hp] at hpo
    obtain ⟨cs, prev', h1, h2, h3, h4⟩ := hpo
    refine { h with done := ?_ }
    intro u hu
    simp only [settled] at hu
    refine ⟨?_, by simp [hb]⟩
    split at h4
    · obtain ⟨ss, h4⟩ := h4
      have hinc := hc.increasing
      rw [h4] at hu hinc
      have : ss ++ [s.prevState, t] = (ss ++ [s.prevState]) ++ [t] := by simp
      rw [this, List.dropLast_concat] at hu
      simp only
      rw [hbs]
      rcases List.mem_append.1 hu with hu | hu
      · exact le_of_lt ((List.pairwise_append.1 hinc).2.2 u hu s.prevState (by simp))
      · have : u = s.prevState := by simpa using hu
        omega
    · rw [h4.1] at hu; simp at hu
  | deskew msg prev t hp hc' =>
    have := h.done
    rw [hp] at this
    exact { h with done := this }
  | finishBaro msg prev t hp hc' _ ht =>
    obtain ⟨bb, bt, ps, rfl, _⟩ := ht.frame
    have hd := h.done
    rw [hp] at hd
    refine { h with done := hd, front := ?_ }
    intro hs
    obtain ⟨f, e1, e2⟩ := h.front hs
    refine ⟨f, e1, ?_⟩
    have hpo := hc.phaseOk
    rw [hp] at hpo
    obtain ⟨cs, prev', h1, h2, h3, h4⟩ := hpo
    split at h4
    · obtain ⟨ss, h4⟩ := h4
      have hinc := hc.increasing
      rw [h4] at hinc
      have := (List.pairwise_append.1 hinc).2.1
      have : s.prevState < t := by simpa using this
      simp only; omega
    · simp only; rw [← h4.2]; exact e2
  | finish msg prev t hp hc' _ =>
    have hd := h.done
    rw [hp] at hd
    refine { h with done := hd, front := ?_ }
    intro hs
    obtain ⟨f, e1, e2⟩ := h.front hs
    refine ⟨f, e1, ?_⟩
    have hpo := hc.phaseOk
    rw [hp] at hpo
    obtain ⟨cs, prev', h1, h2, h3, h4⟩ := hpo
    split at h4
    · obtain ⟨ss, h4⟩ := h4
      have hinc := hc.increasing
      rw [h4] at hinc
      have := (List.pairwise_append.1 hinc).2.1
      have : s.prevState < t := by simpa using this
      simp only; omega
    · simp only; rw [← h4.2]; exact e2

theorem ii (cfg : Cfg A K) (s : FE A K) (hr : Reach cfg s) : II s := by
  refine Reach.induct (P := fun s => II s) ?_ (fun s s' hr h hm => ii_move cfg s s' (ci cfg s hr) h hm) hr
  exact ⟨List.Pairwise.nil, by simp, List.suffix_refl _, by simp, rfl, by simp, .inl rfl, by simp, by simp,
    by simp [settled]⟩

end FrontEnd

end Serpent
