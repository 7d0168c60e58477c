import Verif.Model.SimQueues
import Verif.Props.Simulator
/-
# C58: who gets which answer
-/
namespace Modbus

/-- nothing in the queues, nobody waiting -/
def QueueSt.start (s : SimSt) : QueueSt := ⟨[], [], fun _ => none, s, false⟩

/-- a command is put only when no interface waits for an answer, and no answer is given up -/
def QueueEv.InTurn (q : QueueSt) : QueueEv → Prop
  | .put _ _ => ∀ j, q.waiting j = none
  | .timeout _ => False
  | .handle => True
  | .get _ => True

/-- the interfaces take turns -/
def TakeTurns (cmds : List (Text × SimCmd)) (errText : PyErr → Text) : QueueSt → List QueueEv → Prop
  | _, [] => True
  | q, e :: es => e.InTurn q ∧
    match queueStep cmds errText q e with
    | none => True
    | some (q', _) => TakeTurns cmds errText q' es

/-- the phases of an execution in turns -/
inductive QueuePhase (cmds : List (Text × SimCmd)) (errText : PyErr → Text) (q : QueueSt) (s : SimSt) : Prop
  | idle (hi : q.inq = []) (ho : q.outq = []) (hw : ∀ j, q.waiting j = none) (hs : q.sim = s) (he : q.ended = false) :
      QueuePhase cmds errText q s
  | asked (i : Nat) (cmd : Text) (hi : q.inq = [cmd]) (ho : q.outq = []) (hw : ∀ j, q.waiting j = if j = i then some cmd else none)
      (hs : q.sim = s) (he : q.ended = false) : QueuePhase cmds errText q s
  | answered (i : Nat) (cmd : Text) (hi : q.inq = []) (ho : q.outq = [(simStep cmds errText cmd s).1])
      (hw : ∀ j, q.waiting j = if j = i then some cmd else none) (hs : q.sim = (simStep cmds errText cmd s).2.2)
      (he : q.ended = (simStep cmds errText cmd s).2.1) : QueuePhase cmds errText q s
  | over (hw : ∀ j, q.waiting j = none) (ho : q.outq = []) (he : q.ended = true) : QueuePhase cmds errText q s
  | overAsked (i : Nat) (cmd : Text) (hw : ∀ j, q.waiting j = if j = i then some cmd else none) (ho : q.outq = []) (he : q.ended = true) :
      QueuePhase cmds errText q s

theorem turns_pairs (cmds : List (Text × SimCmd)) (errText : PyErr → Text) (es : List QueueEv) :
    ∀ (q : QueueSt) (s : SimSt) (q' : QueueSt) (gots : List (Text × Text)), QueuePhase cmds errText q s →
      TakeTurns cmds errText q es → queueRun cmds errText q es = some (q', gots) →
      (simRun cmds errText (gots.map Prod.fst) s).1 = gots.map Prod.snd := by
  induction es with
  | nil =>
    intro q s q' gots _ _ hr
    simp only [queueRun, Option.some.injEq, Prod.mk.injEq] at hr
    rw [← hr.2]; rfl
  | cons e es ih =>
    intro q s q' gots hp ht hr
    rw [queueRun] at hr
    rw [TakeTurns] at ht
    cases hst : queueStep cmds errText q e with
    | none => rw [hst] at hr; exact absurd hr (by simp)
    | some p =>
      obtain ⟨q1, got⟩ := p
      rw [hst] at hr ht
      simp only at hr ht
      cases hrun : queueRun cmds errText q1 es with
      | none => rw [hrun] at hr; exact absurd hr (by simp)
      | some p2 =>
        obtain ⟨q2, gots2⟩ := p2
        rw [hrun] at hr
        simp only [Option.some.injEq, Prod.mk.injEq] at hr
        obtain ⟨rfl, rfl⟩ := hr
        -- after the end of the loop nothing is ever got
        have dead : ∀ (es : List QueueEv) (q : QueueSt) (q' : QueueSt) (g : List (Text × Text)), q.ended = true → q.outq = [] →
            queueRun cmds errText q es = some (q', g) → g = [] := by
          intro es
          induction es with
          | nil =>
            intro q q' g _ _ h
            simp only [queueRun, Option.some.injEq, Prod.mk.injEq] at h
            exact h.2.symm
          | cons e es ihd =>
            intro q q' g he ho h
            rw [queueRun] at h
            cases hst : queueStep cmds errText q e with
            | none => rw [hst] at h; exact absurd h (by simp)
            | some p =>
              obtain ⟨q1, got⟩ := p
              rw [hst] at h
              simp only at h
              cases hrun : queueRun cmds errText q1 es with
              | none => rw [hrun] at h; exact absurd h (by simp)
              | some p2 =>
                rw [hrun] at h
                simp only [Option.some.injEq, Prod.mk.injEq] at h
                have key : q1.ended = true ∧ q1.outq = [] ∧ got = none := by
                  cases e with
                  | put i cmd =>
                    simp only [queueStep] at hst
                    cases hw : q.waiting i with
                    | some c => rw [hw] at hst; exact absurd hst (by simp)
                    | none =>
                      rw [hw] at hst
                      simp only [Option.some.injEq, Prod.mk.injEq] at hst
                      rw [← hst.1]; exact ⟨he, ho, hst.2.symm⟩
                  | handle => simp only [queueStep, he, reduceIte] at hst; exact absurd hst (by simp)
                  | get i =>
                    simp only [queueStep, ho] at hst
                    cases hw : q.waiting i <;> (rw [hw] at hst; exact absurd hst (by simp))
                  | timeout i =>
                    simp only [queueStep, ho] at hst
                    cases hw : q.waiting i with
                    | none => rw [hw] at hst; exact absurd hst (by simp)
                    | some c =>
                      rw [hw] at hst
                      simp only [Option.some.injEq, Prod.mk.injEq] at hst
                      rw [← hst.1]; exact ⟨he, rfl, hst.2.symm⟩
                have := ihd q1 p2.1 p2.2 key.1 key.2.1 hrun
                rw [← h.2, key.2.2, this]; rfl
        cases e with
        | timeout i => exact ht.1.elim
        | put i cmd =>
          have hall : ∀ j, q.waiting j = none := ht.1
          simp only [queueStep, hall i, Option.some.injEq, Prod.mk.injEq] at hst
          obtain ⟨rfl, rfl⟩ := hst
          cases hp with
          | idle hi ho hw hs he =>
            refine ih _ s _ _ ?_ ht.2 hrun
            refine .asked i cmd (by simp [hi]) ho ?_ hs he
            intro j; simp only [hw]
          | asked i' cmd' hi ho hw hs he => have := hall i'; rw [hw] at this; simp at this
          | answered i' cmd' hi ho hw hs he => have := hall i'; rw [hw] at this; simp at this
          | over hw ho he =>
            refine ih _ s _ _ ?_ ht.2 hrun
            refine .overAsked i cmd ?_ ho he
            intro j; simp only [hw]
          | overAsked i' cmd' hw ho he => have := hall i'; rw [hw] at this; simp at this
        | handle =>
          cases hp with
          | idle hi ho hw hs he => simp [queueStep, hi] at hst
          | asked i cmd hi ho hw hs he =>
            simp only [queueStep, he, hi, Bool.false_eq_true, reduceIte, Option.some.injEq, Prod.mk.injEq] at hst
            obtain ⟨rfl, rfl⟩ := hst
            refine ih _ s _ _ ?_ ht.2 hrun
            refine .answered i cmd rfl ?_ hw ?_ ?_
            · simp only [ho, hs]; rfl
            · simp only [hs]
            · simp only [hs]
          | answered i cmd hi ho hw hs he => simp [queueStep, hi] at hst
          | over hw ho he => simp [queueStep, he] at hst
          | overAsked i cmd hw ho he => simp [queueStep, he] at hst
        | get i =>
          cases hp with
          | idle hi ho hw hs he => simp [queueStep, hw i] at hst
          | asked i' cmd hi ho hw hs he =>
            simp only [queueStep, ho] at hst
            cases h : q.waiting i <;> (rw [h] at hst; simp at hst)
          | over hw ho he => simp [queueStep, hw i] at hst
          | overAsked i' cmd hw ho he =>
            simp only [queueStep, ho] at hst
            cases h : q.waiting i <;> (rw [h] at hst; simp at hst)
          | answered i' cmd hi ho hw hs he =>
            simp only [queueStep, ho] at hst
            by_cases hii : i = i'
            · subst hii
              have hwi : q.waiting i = some cmd := by rw [hw]; simp
              rw [hwi] at hst
              simp only [Option.some.injEq, Prod.mk.injEq] at hst
              obtain ⟨rfl, rfl⟩ := hst
              have hw' : ∀ j, (if j = i then none else q.waiting j) = none := by
                intro j
                by_cases hj : j = i
                · rw [if_pos hj]
                · rw [if_neg hj, hw, if_neg hj]
              simp only [Option.toList, List.map_append, List.map_cons, List.map_nil, List.singleton_append]
              rw [simRun]
              cases hb : simStep cmds errText cmd s with
              | mk a r =>
                obtain ⟨fin, s1⟩ := r
                rw [hb] at he hs
                cases fin with
                | true =>
                  simp only
                  have := dead es { q with outq := [], waiting := fun j => if j = i then none else q.waiting j } _ _ he rfl hrun
                  rw [this]; rfl
                | false =>
                  simp only
                  have hph : QueuePhase cmds errText { q with outq := [], waiting := fun j => if j = i then none else q.waiting j } s1 :=
                    .idle hi rfl hw' hs he
                  rw [ih _ s1 _ _ hph ht.2 hrun]
            · rw [hw, if_neg hii] at hst; simp at hst

/-- C58 (partial: the interfaces take turns and no answer is given up after a timeout; `C58_false_two_interfaces` and
    `C58_false_timeout` show that neither can be dropped): every interface gets the answer to the command it sent - the answers got,
    in order, are what the simulator answers to the commands sent, in order. -/
theorem C58_take_turns_partial (cmds : List (Text × SimCmd)) (errText : PyErr → Text) (s : SimSt) (es : List QueueEv)
    {q' : QueueSt} {gots : List (Text × Text)} (ht : TakeTurns cmds errText (.start s) es)
    (hr : queueRun cmds errText (.start s) es = some (q', gots)) :
    (simRun cmds errText (gots.map Prod.fst) s).1 = gots.map Prod.snd :=
  turns_pairs cmds errText es _ s _ _ (.idle rfl rfl (fun _ => rfl) rfl rfl) ht hr

/-- C58 is false when the console and an RPC client are active together: the RPC client (1) gets the answer to the command of the
    console (0), and the console the answer to the command of the client. -/
theorem C58_false_two_interfaces (s : SimSt) :
    (queueRun [] (fun _ => []) (.start s)
      [.put 0 "a".toList, .put 1 "b".toList, .handle, .handle, .get 1, .get 0]).map Prod.snd =
    some [("b".toList, "error: unknown command a\r\n".toList), ("a".toList, "error: unknown command b\r\n".toList)] := by
  rfl

/-- C58 is false after a timeout, even with a single interface: every later command gets the answer to the previous one. -/
theorem C58_false_timeout (s : SimSt) :
    (queueRun [] (fun _ => []) (.start s)
      [.put 1 "a".toList, .timeout 1, .handle, .put 1 "b".toList, .get 1, .handle, .put 1 "c".toList, .get 1]).map Prod.snd =
    some [("b".toList, "error: unknown command a\r\n".toList), ("c".toList, "error: unknown command b\r\n".toList)] := by
  rfl

/-- non-vacuity of `C58_take_turns_partial`: two interfaces in turn -/
example (s : SimSt) : TakeTurns [] (fun _ => []) (.start s)
      [.put 0 "a".toList, .handle, .get 0, .put 1 "b".toList, .handle, .get 1] ∧
    (queueRun [] (fun _ => []) (.start s) [.put 0 "a".toList, .handle, .get 0, .put 1 "b".toList, .handle, .get 1]).map Prod.snd =
      some [("a".toList, "error: unknown command a\r\n".toList), ("b".toList, "error: unknown command b\r\n".toList)] := by
  refine ⟨⟨fun _ => rfl, trivial, trivial, ?_, trivial, trivial, trivial⟩, rfl⟩
  intro j
  show (if j = 0 then none else if j = 0 then some "a".toList else none) = none
  by_cases h : j = 0 <;> simp [h]

end Modbus
