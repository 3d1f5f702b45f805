import Verif.Pipe
import Verif.Conforms
import Verif.Props.Oxm

/-!
# Property C117: instructions send packets where the helpers say
-/

namespace Verif.Props

open Verif

/-- The ports of the output actions of a list, in their order. -/
def portsIn (as : List Action) : List Nat :=
  as.filterMap fun
    | .output p _ => some p.toNat
    | _ => none

/-- A list of actions without group action. -/
def NoGroup (as : List Action) : Prop := ∀ g, Action.group g ∉ as

private theorem portOf_said (a : Action) : portOf a.said = match a with
    | .output p _ => some p.toNat
    | _ => none := by
  cases a <;> simp [Action.said, portOf]

private theorem filterMap_said (as : List Action) : (as.map Action.said).filterMap portOf = portsIn as := by
  rw [List.filterMap_map, portsIn]
  congr 1
  funext a
  exact portOf_said a

private theorem any_group (as : List Action) :
    (as.map Action.said).any (fun a => a.name == "OFPAT_GROUP") = false ↔ NoGroup as := by
  rw [List.any_eq_false, NoGroup]
  constructor
  · intro h g hg
    exact h _ (List.mem_map.2 ⟨_, hg, rfl⟩) rfl
  · intro h a ha
    obtain ⟨b, hb, rfl⟩ := List.mem_map.1 ha
    cases b <;> simp [Action.said]
    exact h _ hb

private def wr (ρ : List Action) (a : Action) : List Action :=
  ρ.filter (fun b => !sameKind a.said b.said) ++ [a]

private theorem setWrite_said (ρ : List Action) (a : Action) :
    setWrite (ρ.map Action.said) a.said = (wr ρ a).map Action.said := by
  simp [setWrite, wr, List.filter_map, Function.comp_def]

private theorem foldl_said (as : List Action) : ∀ ρ : List Action,
    (as.map Action.said).foldl setWrite (ρ.map Action.said) = (as.foldl wr ρ).map Action.said := by
  induction as with
  | nil => intro ρ; rfl
  | cons a as ih => intro ρ; rw [List.map_cons, List.foldl_cons, setWrite_said, ih, List.foldl_cons]

private theorem foldl_mem (as : List Action) : ∀ (ρ : List Action) (b : Action),
    b ∈ as.foldl wr ρ → b ∈ ρ ∨ b ∈ as := by
  induction as with
  | nil => intro ρ b h; exact .inl h
  | cons a as ih =>
    intro ρ b h
    rcases ih _ b h with h | h
    · rcases List.mem_append.1 h with h | h
      · exact .inl (List.mem_filter.1 h).1
      · exact .inr (by simp [List.mem_singleton.1 h])
    · exact .inr (List.mem_cons_of_mem _ h)

private theorem kind_output (p : UInt32) (m : UInt16) (b : Action) :
    sameKind (Action.output p m).said b.said = true ∨ portsIn [b] = [] := by
  cases b <;> first | (left; rfl) | (right; rfl)

private theorem kind_other (a b : Action) (h : sameKind a.said b.said = true) :
    (∃ p m, a = .output p m) ∨ portsIn [b] = [] := by
  cases b <;> first | (right; rfl) | skip
  cases a <;> first | exact .inl ⟨_, _, rfl⟩ | (simp [sameKind, Action.said] at h)

private theorem portsIn_cons (a : Action) (as : List Action) :
    portsIn (a :: as) = portsIn [a] ++ portsIn as := by
  rw [portsIn, portsIn, portsIn, ← List.filterMap_append]; rfl

private theorem ports_filter (a : Action) (ρ : List Action) :
    portsIn (ρ.filter (fun b => !sameKind a.said b.said)) =
      match a with
      | .output _ _ => []
      | _ => portsIn ρ := by
  by_cases ha : ∃ p m, a = .output p m
  · obtain ⟨p, m, rfl⟩ := ha
    induction ρ with
    | nil => rfl
    | cons b ρ ih =>
      rw [List.filter_cons]
      split
      · rename_i h
        rw [portsIn_cons, ih, (kind_output p m b).resolve_left (by simpa using h)]; rfl
      · exact ih
  · have : portsIn (ρ.filter (fun b => !sameKind a.said b.said)) = portsIn ρ := by
      induction ρ with
      | nil => rfl
      | cons b ρ ih =>
        rw [List.filter_cons]
        split
        · rw [portsIn_cons, ih, ← portsIn_cons]
        · rename_i h
          rw [ih, portsIn_cons b, (kind_other a b (by simpa using h)).resolve_left ha]; rfl
    rw [this]
    cases a <;> first | rfl | exact absurd ⟨_, _, rfl⟩ ha

private theorem ports_wr (ρ : List Action) (a : Action) :
    portsIn (wr ρ a) = match a with
      | .output p _ => [p.toNat]
      | _ => portsIn ρ := by
  have : portsIn (wr ρ a) = portsIn (ρ.filter (fun b => !sameKind a.said b.said)) ++ portsIn [a] := by
    simp [portsIn, wr, List.filterMap_append]
  rw [this, ports_filter]
  cases a <;> simp [portsIn]

private theorem ports_foldl (as : List Action) : ∀ ρ : List Action,
    portsIn (as.foldl wr ρ) = match (portsIn as).getLast? with
      | some p => [p]
      | none => portsIn ρ := by
  induction as with
  | nil => intro ρ; rfl
  | cons a as ih =>
    intro ρ
    rw [List.foldl_cons, ih, ports_wr]
    have hc : portsIn (a :: as) = portsIn [a] ++ portsIn as := by
      simp [portsIn, ← List.filterMap_append]
    rw [hc, List.getLast?_append]
    cases h : (portsIn as).getLast? with
    | some p => simp
    | none => cases a <;> simp [portsIn]

private theorem sent (is : List Instruction) (hv : ∀ i ∈ is, i.Valid) (σ : List Spec.Action) :
    sentTo (is.flatMap fun i => i.writeTo.out) σ =
      some ((actionsOf "OFPIT_APPLY_ACTIONS" (is.map Instruction.said)).filterMap portOf ++
        setOut (setAfter (is.map Instruction.said) σ)) := by
  have : (is.flatMap fun i => i.writeTo.out) = Instructions.bytes is := rfl
  rw [sentTo, this, Instructions.conforms is hv]
  rfl

private theorem setOut_foldl (as ρ : List Action) (h1 : NoGroup as) (h2 : NoGroup ρ) :
    setOut ((as.map Action.said).foldl setWrite (ρ.map Action.said)) =
      match (portsIn as).getLast? with
      | some p => [p]
      | none => portsIn ρ := by
  rw [foldl_said, setOut, (any_group _).2 fun g hg => (foldl_mem as ρ _ hg).elim (h2 g) (h1 g)]
  rw [if_neg (by decide), filterMap_said, ports_foldl]

/-- C117.  `ActionsApply(as...)`: the packet is sent to all ports of the output actions, in their
order, and then where the actions say that were written in earlier tables. -/
theorem pipe_apply (as : List Action) (hv : (Instruction.applyActions as).Valid) (σ : List Spec.Action) :
    sentTo ((actionsApply as).flatMap fun i => i.writeTo.out) σ = some (portsIn as ++ setOut σ) := by
  rw [actionsApply, sent _ (by simpa using hv)]
  rw [← filterMap_said]
  simp [actionsOf, setAfter, Instruction.said]

/-- C117.  `ActionsWrite(as...)`: the packet is sent to the port of the last output action only,
or, if there is none among them, where the actions `ρ` say that were written in earlier tables. -/
theorem pipe_write (as ρ : List Action) (hv : (Instruction.writeActions as).Valid) (h1 : NoGroup as)
    (h2 : NoGroup ρ) :
    sentTo ((actionsWrite as).flatMap fun i => i.writeTo.out) (ρ.map Action.said) =
      some (match (portsIn as).getLast? with
        | some p => [p]
        | none => portsIn ρ) := by
  rw [actionsWrite, sent _ (by simpa using hv), ← setOut_foldl as ρ h1 h2]
  simp [actionsOf, setAfter, Instruction.said]

/-- C117.  `ActionsClear()`: the packet is sent nowhere, whatever was written in earlier tables. -/
theorem pipe_clear (σ : List Spec.Action) :
    sentTo (actionsClear.flatMap fun i => i.writeTo.out) σ = some [] := by
  rw [actionsClear, sent _ (by simp [Instruction.Valid])]
  simp [actionsOf, setAfter, Instruction.said, setOut]

/-- C117.  The results of all three in one entry, in whatever order they are put together: applied
actions first, and of the action set only what the entry itself has written. -/
theorem pipe_all (as bs : List Action) (ha : (Instruction.applyActions as).Valid)
    (hb : (Instruction.writeActions bs).Valid) (h1 : NoGroup bs) (σ : List Spec.Action)
    (is : List Instruction) (hp : is.Perm (actionsApply as ++ actionsWrite bs ++ actionsClear)) :
    sentTo (is.flatMap fun i => i.writeTo.out) σ =
      some (portsIn as ++ (portsIn bs).getLast?.toList) := by
  have hv : ∀ i ∈ is, i.Valid := by
    intro i hi
    have := hp.mem_iff.1 hi
    simp only [actionsApply, actionsWrite, actionsClear, List.cons_append, List.nil_append,
      List.mem_cons, List.not_mem_nil, or_false] at this
    rcases this with rfl | rfl | rfl
    · exact ha
    · exact hb
    · trivial
  have hs := hp.map Instruction.said
  have e : ∀ name l, ((actionsApply as ++ actionsWrite bs ++ actionsClear).map Instruction.said).filter
      (fun i => i.name == name) = [l] → actionsOf name (is.map Instruction.said) = l.actions := by
    intro name l hl
    have := hs.filter (fun i => i.name == name)
    rw [hl] at this
    rw [actionsOf, this.eq_singleton]
    simp
  have e1 := e "OFPIT_APPLY_ACTIONS" (Instruction.applyActions as).said
    (by simp [actionsApply, actionsWrite, actionsClear, Instruction.said])
  have e2 := e "OFPIT_WRITE_ACTIONS" (Instruction.writeActions bs).said
    (by simp [actionsApply, actionsWrite, actionsClear, Instruction.said])
  have e3 : (is.map Instruction.said).any (fun i => i.name == "OFPIT_CLEAR_ACTIONS") = true := by
    rw [List.any_eq_true]
    exact ⟨Instruction.clearActions.said, hs.mem_iff.2 (by simp [actionsClear]), rfl⟩
  rw [sent is hv, setAfter, e1, e2, e3, if_pos rfl]
  have := setOut_foldl bs [] h1 (fun g hg => by cases hg)
  simp only [Instruction.said]
  rw [filterMap_said, show ([] : List Spec.Action) = [].map Action.said from rfl, this]
  cases (portsIn bs).getLast? <;> simp [portsIn]

/-- C117.  All together: a flow modification with a match of valid fields, `ActionsApply(as...)` and
a priority above the others of its table.  In that table every packet that has the values named is
handled by one entry, and sent to exactly the ports of the output actions. -/
theorem pipe_flow (f : FlowMod) (hv : f.mtch.Valid) (hm : f.mtch.type = 1)
    (hc : f.command = 0) (ht : f.table ≠ 255) (hf : f.flags.toNat / 2 % 2 = 0)
    (hl : 8 + f.writeTo.out.length ≤ 65535) (as : List Action) (hi : f.instructions = actionsApply as)
    (ha : (Instruction.applyActions as).Valid) (o : Bytes → Bytes → Bool) (po gr : Bytes → List Nat)
    (S : List SwEntry) (hS : ∀ e ∈ S, e.table = f.table.toNat → e.priority < f.priority.toNat) :
    ∃ msg S', ((requestOf 14 f.writeTo).writeTo recorder []).dst = [msg] ∧
      (oxmRules o po gr).flowMod msg S = .ok S' ∧
      ∀ p, (∀ x ∈ f.mtch.fields, Selects x p) →
        ∃ e, (∀ e', (oxmRules o po gr).Handles S' f.table.toNat p e' ↔ e' = e) ∧
          sentTo e.instrs [] = some (portsIn as) := by
  obtain ⟨msg, S', new, h1, h2, h3, h4⟩ := oxm_flow f hv hm hc ht hf hl o po gr S hS
  refine ⟨msg, S', h1, h2, fun p hp => ⟨new, (h4 p).1 hp, ?_⟩⟩
  rw [h3, hi, pipe_apply as ha]
  simp [setOut]

/-- C117.  An entry without instructions, such as that of `FlowDrop`, sends a packet nowhere for
which no actions were written in earlier tables. -/
theorem pipe_drop : sentTo [] [] = some [] := rfl

/-- The claim for `FlowDrop` needs that condition: actions written in earlier tables are still
executed. -/
theorem pipe_drop_written : sentTo [] [(Action.output 7 0).said] = some [7] := by decide +kernel

/-- In a table in which one entry handles the packet, and does not send it on. -/
private theorem walk_one {π : Type} {R : SwRules π} {S : List SwEntry} {p : π} {t : Nat} {e : SwEntry}
    (he : ∀ e', R.Handles S t p e' ↔ e' = e) {is : List Spec.Instruction}
    (hi : Spec.instructions e.instrs = some is) (hg : gotoOf is = none) (σ : List Spec.Action)
    (outs : List Nat) : Walk R S p t σ outs ↔ sentTo e.instrs σ = some outs := by
  rw [sentTo, hi, Option.map_some, Option.some.injEq]
  constructor
  · intro h
    cases h with
    | miss _ _ h => exact absurd ((he e).2 rfl) (h e)
    | last _ _ e' is' h1 h2 h3 =>
      rw [(he e').1 h1, hi] at h2
      cases h2; rfl
    | next _ t' _ e' is' o h1 h2 h3 =>
      rw [(he e').1 h1, hi] at h2
      cases h2
      rw [hg] at h3; cases h3
  · rintro rfl
    exact .last t σ e is ((he e).2 rfl) hi hg

/-- C117.  A switch that got `TableFlush(0)` and then `FlowDrop(0)` sends no packet anywhere,
whatever is in its other tables. -/
theorem pipe_quarantine :
    ∃ m₁ m₂, ((tableFlush 0).writeTo recorder []).dst = [m₁] ∧
      ((flowDrop 0).writeTo recorder []).dst = [m₂] ∧
      ∀ {π : Type} (R : SwRules π), R.Lawful → ∀ S : List SwEntry,
        ∃ S₁ S₂, R.flowMod m₁ S = .ok S₁ ∧ R.flowMod m₂ S₁ = .ok S₂ ∧
          ∀ p outs, Walk R S₂ p 0 [] outs ↔ outs = [] := by
  obtain ⟨m₁, m₂, h1, h2, h3⟩ := switch_flush_drop 0 (by decide)
  refine ⟨m₁, m₂, h1, h2, fun R hR S => ?_⟩
  obtain ⟨S₁, S₂, k1, k2, k3, -⟩ := h3 R hR S
  refine ⟨S₁, S₂, k1, k2, fun p outs => ?_⟩
  rw [walk_one (t := 0) (k3 p) (is := []) rfl rfl]
  simp only [pipe_drop, Option.some.injEq]
  exact eq_comm

private theorem walk_mono {π : Type} {R : SwRules π} {S S' : List SwEntry} {p : π}
    (h : ∀ t e, R.Handles S' t p e ↔ R.Handles S t p e) {t : Nat} {σ : List Spec.Action}
    {outs : List Nat} (hw : Walk R S p t σ outs) : Walk R S' p t σ outs := by
  induction hw with
  | miss t σ hn => exact .miss t σ fun e he => hn e ((h t e).1 he)
  | last t σ e is h1 h2 h3 => exact .last t σ e is ((h t e).2 h1) h2 h3
  | next t t' σ e is outs h1 h2 h3 h4 _ ih => exact .next t t' σ e is outs ((h t e).2 h1) h2 h3 h4 ih

/-- C117.  The whole way of packets: a flow modification for table 0 with a match of valid fields,
`ActionsApply(as...)` and a priority above the others of the table.  Packets that have the values
named leave the switch on exactly the ports of the output actions, in their order; all others go
the way they went before. -/
theorem pipe_walk (f : FlowMod) (hv : f.mtch.Valid) (hm : f.mtch.type = 1)
    (hc : f.command = 0) (ht : f.table = 0) (hf : f.flags.toNat / 2 % 2 = 0)
    (hl : 8 + f.writeTo.out.length ≤ 65535) (as : List Action) (hi : f.instructions = actionsApply as)
    (ha : (Instruction.applyActions as).Valid) (o : Bytes → Bytes → Bool) (po gr : Bytes → List Nat)
    (S : List SwEntry) (hS : ∀ e ∈ S, e.table = 0 → e.priority < f.priority.toNat) :
    ∃ msg S', ((requestOf 14 f.writeTo).writeTo recorder []).dst = [msg] ∧
      (oxmRules o po gr).flowMod msg S = .ok S' ∧
      ∀ p outs,
        ((∀ x ∈ f.mtch.fields, Selects x p) →
          (Walk (oxmRules o po gr) S' p 0 [] outs ↔ outs = portsIn as)) ∧
        (¬(∀ x ∈ f.mtch.fields, Selects x p) →
          (Walk (oxmRules o po gr) S' p 0 [] outs ↔ Walk (oxmRules o po gr) S p 0 [] outs)) := by
  have h0 : f.table.toNat = 0 := by rw [ht]; rfl
  obtain ⟨msg, S', new, h1, h2, h3, h4⟩ := oxm_flow f hv hm hc (by rw [ht]; decide) hf hl o po gr S
    (by rw [h0]; exact hS)
  refine ⟨msg, S', h1, h2, fun p outs => ⟨fun hp => ?_, fun hp => ?_⟩⟩
  · have he := (h4 p).1 hp
    rw [h0] at he
    have hb : Spec.instructions new.instrs = some ((actionsApply as).map Instruction.said) := by
      rw [h3, hi]
      exact Instructions.conforms _ (by simpa [actionsApply] using ha)
    rw [walk_one he hb (by simp [gotoOf, actionsApply, Instruction.said]), h3, hi, pipe_apply as ha]
    simp only [setOut, List.any_nil, List.filterMap_nil, Bool.false_eq_true, if_false,
      List.append_nil, Option.some.injEq]
    exact eq_comm
  · have hh : ∀ t e, (oxmRules o po gr).Handles S' t p e ↔ (oxmRules o po gr).Handles S t p e := by
      intro t e
      by_cases hx : t = f.table.toNat
      · rw [hx]; exact (h4 p).2.1 hp e
      · exact (h4 p).2.2 t hx e
    exact ⟨walk_mono fun t e => (hh t e).symm, walk_mono hh⟩

/-- Non-vacuity: flood and send to the controller; of two written outputs the last counts. -/
example : (Instruction.applyActions [.output 0xfffffffb 0, .output 0xfffffffd 128]).Valid ∧
    sentTo ((actionsApply [.output 0xfffffffb 0, .output 0xfffffffd 128]).flatMap fun i => i.writeTo.out) [] =
      some [0xfffffffb, 0xfffffffd] ∧
    sentTo ((actionsWrite [.output 1 0, .popVLAN, .output 2 0]).flatMap fun i => i.writeTo.out)
      ([Action.output 9 0].map Action.said) = some [2] ∧
    sentTo ((actionsWrite [.popVLAN]).flatMap fun i => i.writeTo.out)
      ([Action.output 9 0].map Action.said) = some [9] ∧
    8 + ({ newFlowMod 0 (some (0xffffffff, ⟨1, [matchInPort 5]⟩)) with
      priority := 10, instructions := actionsApply [.output 3 0] }).writeTo.out.length ≤ 65535 ∧
    NoGroup [.output 1 0, .popVLAN] := by
  refine ⟨by decide +kernel, by decide +kernel, by decide +kernel, by decide +kernel, by decide +kernel, ?_⟩
  intro g; simp

/-- Non-vacuity: a packet that writes an output in table 0, goes on to table 1 and is sent there by
an entry without instructions. -/
example : Walk ⟨fun _ _ => true, fun _ _ => true, fun _ _ => false, fun _ (_ : Unit) => true,
      fun _ => [], fun _ => []⟩
    [⟨0, 0, 0, [], ([.writeActions [.output 7 0], .gotoTable 1] : List Instruction).flatMap fun i => i.writeTo.out⟩,
      ⟨1, 0, 0, [], []⟩] () 0 [] [7] := by
  have h1 : Spec.instructions (([.writeActions [.output 7 0], .gotoTable 1] : List Instruction).flatMap
      fun i => i.writeTo.out) =
      some (([.writeActions [.output 7 0], .gotoTable 1] : List Instruction).map Instruction.said) := by
    decide +kernel
  refine Walk.next (t := 0) (t' := 1) (σ := []) (e := ⟨0, 0, 0, [], _⟩) (is := _) (outs := [7])
    ⟨List.mem_cons_self, rfl, rfl, ?_⟩ h1 (by decide +kernel) (by decide) ?_
  · intro e he ht _; simp at he; rcases he with rfl | rfl <;> simp
  · refine Walk.last (t := 1) (e := ⟨1, 0, 0, [], []⟩) (is := []) (σ := _) ⟨by simp, rfl, rfl, ?_⟩ rfl rfl
    intro e he ht _; simp at he; rcases he with rfl | rfl <;> simp

end Verif.Props
