import Verif.Props.TranslationFrame
import Verif.Props.CommB
/-!
# The translated `ReadCommBMessage` is that of the model
-/
namespace Modes

theorem returnsNil_checked (b : Bool) : returnsNil (checked b) = b := by cases b <;> rfl

/-- Appending what a reader offers. -/
theorem append_ofPtr {α : Type} (r : Go α) (f : α → CommBMessage) (l : List CommBMessage) :
    appendReadable (l.map Iface.val) (Call.ofPtr r f) =
      attempt r >>= fun o => pure ((match o with | some m => l ++ [f m] | none => l).map Iface.val) := by
  rcases r with (_ | _) | a
  · rfl
  · rfl
  · simp only [Call.ofPtr, appendReadable, attempt, go_bind_ok, List.map_append, List.map_cons, List.map_nil]; rfl

/-- Appending what a reader of an interface offers, when it never returns a nil without an error. -/
theorem append_call {α : Type} (r : Call α) (f : α → CommBMessage) (l : List CommBMessage)
    (hr : (∃ a, r = .returns (.val a) false) ∨ r = .returns .nil true) :
    appendReadable (l.map Iface.val) (r.map f) =
      attempt r.toGo >>= fun o => pure ((match o with | some m => l ++ [f m] | none => l).map Iface.val) := by
  rcases hr with ⟨a, rfl⟩ | rfl
  · simp only [Call.map, appendReadable, Call.toGo, attempt, go_bind_ok, List.map_append, List.map_cons, List.map_nil]; rfl
  · rfl

/-- Keeping a message that is coherent. -/
theorem coherentResult_ofPtr {α : Type} (r : Go α) (f : α → CommBMessage) :
    coherentResult (Call.ofPtr r f) =
      attempt r >>= fun o => pure ((o.filter fun m => returnsNil (Gen.bds.Message.CheckCoherency (f m))).map fun m => Iface.val (f m)) := by
  rcases r with (_ | _) | a
  · rfl
  · rfl
  · simp only [Call.ofPtr, coherentResult, attempt, go_bind_ok, coherent_CommBMessage, returnsNil_checked, Iface.coherent,
      Bool.false_eq_true, if_false, Option.filter]
    cases (f a).coherent <;> rfl

/-- The loop keeping the coherent messages. -/
theorem fold_coherent (l acc : List CommBMessage) :
    (l.foldlM (fun (acc : List CommBMessage) m =>
      (pure (if returnsNil (Gen.bds.Message.CheckCoherency m) then acc ++ [m] else acc) : Go (List CommBMessage))) acc) =
      .ok (acc ++ l.filter CommBMessage.coherent) := by
  induction l generalizing acc with
  | nil => simp [pure, Except.pure]
  | cons m t ih =>
    rw [List.foldlM_cons, pure_bind, ih, coherent_CommBMessage, returnsNil_checked, List.filter_cons]
    cases m.coherent <;> simp

theorem attempt_map_val {α : Type} (o : Go (Option α)) (k : Option α → Go (List CommBMessage))
    (k' : Option α → Go (List (Iface CommBMessage))) (h : ∀ x, (k x).map (List.map Iface.val) = k' x) :
    (o >>= k).map (List.map Iface.val) = o >>= k' := by
  cases o with
  | error e => rfl
  | ok x => exact h x

/-- `ReadCommBMessage`: the messages the model lists are those of the translation. -/
theorem same_ReadCommBMessage (d : List UInt8) :
    (Gen.commb.ReadCommBMessage d).map (List.map Iface.val) = readCommBMessage d := by
  unfold Gen.commb.ReadCommBMessage readCommBMessage
  simp only [translated, same_ReadMeteorologicalRoutineAirReport, same_ReadMeteorologicalHazardReport]
  by_cases h7 : d.length = 7
  case neg => simp only [h7, ne_eq, not_false_eq_true, if_true]; rfl
  simp only [h7, ne_eq, not_true_eq_false, if_false]
  rcases readBDS00 d with (_ | _) | m
  case error.panic => rfl
  case ok => rfl
  have e0 : attempt (.error .err : Go NoMessageAvailable) = .ok none := rfl
  have e1 : Call.ofPtr (.error .err : Go NoMessageAvailable) CommBMessage.bds00 = .returns .typedNil true := rfl
  simp only [e0, e1, go_bind_ok]
  simp only [coherentResult_ofPtr, bind_assoc, pure_bind]
  refine attempt_map_val _ _ _ fun o => ?_
  cases o.filter _ with
  | some m => rfl
  | none =>
  simp only [Option.map_none]
  refine attempt_map_val _ _ _ fun o => ?_
  cases o.filter _ with
  | some m => rfl
  | none =>
  simp only [Option.map_none]
  have hl : ([] : List (Iface CommBMessage)) = ([] : List CommBMessage).map Iface.val := rfl
  rw [hl]
  simp only [append_ofPtr, append_call _ _ _ (call44 d), append_call _ _ _ (call45 d), bind_assoc, pure_bind, fold_coherent,
    keepCoherent_val, List.nil_append]
  repeat' (refine attempt_map_val _ _ _ fun o => ?_)
  rename_i o10 o17 o30 o40 o44 o45 o50
  rcases o10 with _ | m10 <;> rcases o17 with _ | m17 <;> rcases o30 with _ | m30 <;> rcases o40 with _ | m40 <;>
    rcases o44 with _ | m44 <;> rcases o45 with _ | m45 <;> rcases o50 with _ | m50 <;> rcases o with _ | m60 <;> rfl

end Modes
