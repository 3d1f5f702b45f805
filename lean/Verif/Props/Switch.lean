import Verif.Switch
import Verif.Props.Ofputil
import Verif.Props.Match
import Verif.Loose

/-!
# Property C114: what the flow helpers do to a switch
-/

namespace Verif.Props

open Verif

private theorem u8_255 (t : UInt8) : (t.toNat == 255) = (t == 255) := by
  rw [Bool.eq_iff_iff]
  simp [← UInt8.toNat_inj]

/-- C114.  `TableFlush(t)`, sent, removes from every switch exactly the entries of table `t`,
whatever they match, whatever their instructions, priorities and cookies are; with
`t` = 255 (`TableAll`) all entries. -/
theorem switch_tableFlush (t : UInt8) :
    ∃ msg, ((tableFlush t).writeTo recorder []).dst = [msg] ∧
      ((tableFlush t).writeTo recorder []).err = none ∧
      ∀ {π : Type} (R : SwRules π), R.Lawful → ∀ S : List SwEntry,
        R.flowMod msg S = .ok (S.filter (fun e => !(t == 255 || e.table == t.toNat))) := by
  obtain ⟨msg, h1, h2, h3⟩ := tableFlush_wire t
  refine ⟨msg, h1, h2, fun R hR S => ?_⟩
  simp only [FlowModHead, List.cons_append, List.nil_append, Layout, List.drop_drop,
    Nat.reduceAdd] at h3
  obtain ⟨-, -, -, -, -, -, -, -, -, c1, -, c2, -, c3, -, c4, -, -, -, -, -, -, -, -, -, c5, -, c6, -,
    -, -, -, -, c7, -, c8, -⟩ := h3
  have ht := u8_255 t
  have hf : modFields msg = [] := by simp [modFields, numAt, c8]
  simp only [SwRules.flowMod, SwRules.fits, hf, hR.narrower_nil]
  simp [numAt, c1, c2, c3, c4, c5, c6, c7, ht]

/-- C114.  `FlowFlush(t, m)`, sent, removes exactly the entries of table `t` (255: of all
tables) that the switch finds as specific as `m` or more specific. -/
theorem switch_flowFlush (t : UInt8) (m : Match) (hv : m.Valid) (hm : m.type = 1)
    (hl : 48 + m.writeTo.out.length ≤ 65535) :
    ∃ msg, ((flowFlush t m).writeTo recorder []).dst = [msg] ∧
      ((flowFlush t m).writeTo recorder []).err = none ∧
      ∀ {π : Type} (R : SwRules π) (S : List SwEntry),
        R.flowMod msg S = .ok (S.filter (fun e => !((t == 255 || e.table == t.toNat) &&
          R.narrower e.fields (m.fields.flatMap (fun x => x.writeTo.out))))) := by
  obtain ⟨msg, h1, h2, h3⟩ := flowFlush_wire t m hl
  obtain ⟨len, pd, g1, g2, g3, g4, g5⟩ := match_layout m hv
  refine ⟨msg, h1, h2, fun R S => ?_⟩
  have hlen := g5.length
  simp only [FlowModHead, List.cons_append, List.nil_append, Layout, List.drop_drop,
    Nat.reduceAdd] at h3
  obtain ⟨-, -, -, -, -, -, -, -, -, c1, -, c2, -, c3, -, c4, -, -, -, -, -, -, -, -, -, c5, -, c6, -,
    -, -, -, -, c7, c8⟩ := h3
  have hd : msg.drop 48 = m.writeTo.out := by
    have := List.take_append_drop m.writeTo.out.length (msg.drop 48)
    rw [c7, List.drop_drop, c8, List.append_nil] at this
    exact this.symm
  simp only [Layout] at g5
  obtain ⟨-, k1, -, k2, -, k3, -⟩ := g5
  have e1 : numAt msg 48 2 = 1 := by rw [numAt, hd, k1, hm]; rfl
  have e2 : numAt msg 50 2 = len := by
    rw [numAt, show (50 : Nat) = 48 + 2 from rfl, ← List.drop_drop, hd, k2]
  have hf : modFields msg = m.fields.flatMap (fun x => x.writeTo.out) := by
    rw [modFields, e2, show (52 : Nat) = 48 + 4 from rfl, ← List.drop_drop, hd]
    rw [List.drop_drop] at k3
    have : len - 4 = (m.fields.flatMap (fun x => x.writeTo.out)).length := by
      simp only [width_cons, width_nil, Fld.width] at hlen; omega
    rw [this]; exact k3
  simp only [SwRules.flowMod, SwRules.fits, hf, e1]
  simp [numAt, c1, c2, c3, c4, c5, c6, u8_255]

/-- C114.  `FlowDrop(t)`, sent, adds to table `t` one entry of the lowest priority, without
match fields and without instructions; it takes the place of the entry that is there with that
priority and no match fields, if any.  A switch refuses `FlowDrop(255)`. -/
theorem switch_flowDrop (t : UInt8) :
    ∃ msg, ((flowDrop t).writeTo recorder []).dst = [msg] ∧
      ((flowDrop t).writeTo recorder []).err = none ∧
      ∀ {π : Type} (R : SwRules π) (S : List SwEntry),
        (t = 255 → R.flowMod msg S = .error .badTable) ∧
        (t ≠ 255 → R.flowMod msg S = .ok (S.filter (fun e =>
          !(e.table == t.toNat && e.priority == 0 && R.same e.fields [])) ++
            [⟨t.toNat, 0, 0, [], []⟩])) := by
  obtain ⟨msg, h1, h2, h3⟩ := flowDrop_wire t
  refine ⟨msg, h1, h2, fun R S => ?_⟩
  simp only [FlowModHead, List.cons_append, List.nil_append, Layout, List.drop_drop,
    Nat.reduceAdd] at h3
  obtain ⟨-, -, -, -, -, -, -, -, -, c1, -, c2, -, c3, -, c4, -, -, -, -, -, p1, -, -, -, c5, -, c6, -,
    fl, -, -, -, c7, -, c8, -, -, c9⟩ := h3
  have hf : modFields msg = [] := by simp [modFields, numAt, c8]
  have hi : modInstrs msg = [] := by
    simp only [modInstrs, numAt, c8]; exact c9
  have ht : t.toNat = 255 ↔ t = 255 := by rw [← UInt8.toNat_inj]; rfl
  simp only [SwRules.flowMod, hf, hi]
  simp only [numAt, c1, c3, c4, c7, p1, fl, ht]
  constructor
  · intro h; simp [h]
  · intro h; simp [h]

/-- C114.  What `FlowDrop(t)` means for packets: one that an entry of a higher priority of table
`t` matched is handled as before; one that nothing else of the table matches is dropped, i.e.
handled by an entry without instructions; in the other tables nothing changes. -/
theorem switch_drop_packets {π : Type} (R : SwRules π) (hR : R.Lawful) (t : Nat)
    (S : List SwEntry) (p : π) (S' : List SwEntry)
    (hS : S' = S.filter (fun e => !(e.table == t && e.priority == 0 && R.same e.fields [])) ++
      [⟨t, 0, 0, [], []⟩]) :
    (∀ e, 0 < e.priority → (R.Handles S' t p e ↔ R.Handles S t p e)) ∧
    ((∀ e ∈ S, e.table = t → R.hit e.fields p = false) →
      ∀ e, R.Handles S' t p e ↔ e = ⟨t, 0, 0, [], []⟩) ∧
    (∀ t' e, t' ≠ t → (R.Handles S' t' p e ↔ R.Handles S t' p e)) := by
  have hmem : ∀ e, e ∈ S' ↔ (e ∈ S ∧ ¬(e.table = t ∧ e.priority = 0 ∧ R.same e.fields [] = true)) ∨
      e = ⟨t, 0, 0, [], []⟩ := by
    intro e; rw [hS]
    by_cases h1 : e.table = t <;> by_cases h2 : e.priority = 0 <;> simp [h1, h2]
  refine ⟨fun e he => ⟨?_, ?_⟩, fun hno e => ⟨?_, ?_⟩, fun t' e ht => ⟨?_, ?_⟩⟩
  · rintro ⟨h1, h2, h3, h4⟩
    rcases (hmem e).1 h1 with ⟨h1, -⟩ | rfl
    · refine ⟨h1, h2, h3, fun e' k1 k2 k3 => ?_⟩
      by_cases hp : e'.priority = 0
      · omega
      · exact h4 e' ((hmem e').2 (.inl ⟨k1, fun h => hp h.2.1⟩)) k2 k3
    · simp at he
  · rintro ⟨h1, h2, h3, h4⟩
    refine ⟨(hmem e).2 (.inl ⟨h1, fun h => by omega⟩), h2, h3, fun e' k1 k2 k3 => ?_⟩
    rcases (hmem e').1 k1 with ⟨k1, -⟩ | rfl
    · exact h4 e' k1 k2 k3
    · exact Nat.zero_le _
  · rintro ⟨h1, h2, h3, -⟩
    rcases (hmem e).1 h1 with ⟨h1, -⟩ | h
    · rw [hno e h1 h2] at h3; cases h3
    · exact h
  · rintro rfl
    refine ⟨(hmem _).2 (.inr rfl), rfl, hR.hit_nil p, fun e' k1 k2 k3 => ?_⟩
    rcases (hmem e').1 k1 with ⟨k1, -⟩ | rfl
    · rw [hno e' k1 k2] at k3; cases k3
    · exact Nat.le_refl _
  · rintro ⟨h1, h2, h3, h4⟩
    rcases (hmem e).1 h1 with ⟨h1, -⟩ | rfl
    · exact ⟨h1, h2, h3, fun e' k1 k2 k3 => h4 e' ((hmem e').2 (.inl ⟨k1, fun h => ht (by
        rw [← k2, h.1])⟩)) k2 k3⟩
    · exact absurd h2.symm ht
  · rintro ⟨h1, h2, h3, h4⟩
    refine ⟨(hmem e).2 (.inl ⟨h1, fun h => ht (by rw [← h2, h.1])⟩), h2, h3, fun e' k1 k2 k3 => ?_⟩
    rcases (hmem e').1 k1 with ⟨k1, -⟩ | rfl
    · exact h4 e' k1 k2 k3
    · exact Nat.zero_le _

/-- C114.  `TableFlush(t)` and then `FlowDrop(t)`: every packet that comes to table `t` of any
switch is dropped, whatever the table held, and the other tables are as they were. -/
theorem switch_flush_drop (t : UInt8) (ht : t ≠ 255) :
    ∃ m₁ m₂, ((tableFlush t).writeTo recorder []).dst = [m₁] ∧
      ((flowDrop t).writeTo recorder []).dst = [m₂] ∧
      ∀ {π : Type} (R : SwRules π), R.Lawful → ∀ S : List SwEntry,
        ∃ S₁ S₂, R.flowMod m₁ S = .ok S₁ ∧ R.flowMod m₂ S₁ = .ok S₂ ∧
          (∀ p e, R.Handles S₂ t.toNat p e ↔ e = ⟨t.toNat, 0, 0, [], []⟩) ∧
          (∀ e, e.table ≠ t.toNat → (e ∈ S₂ ↔ e ∈ S)) := by
  obtain ⟨m₁, a1, -, a3⟩ := switch_tableFlush t
  obtain ⟨m₂, b1, -, b3⟩ := switch_flowDrop t
  refine ⟨m₁, m₂, a1, b1, fun R hR S => ?_⟩
  refine ⟨_, _, a3 R hR S, (b3 R _).2 ht, fun p e => ?_, fun e he => ?_⟩
  · refine (switch_drop_packets R hR t.toNat _ p _ rfl).2.1 ?_ e
    intro e' k1 k2
    simp [k2] at k1
  · have hx : e ≠ ⟨t.toNat, 0, 0, [], []⟩ := fun h => he (by rw [h])
    simp [he, hx, ht]

/-- C114 is violated by `NewFlowMod(c, nil)`: its match has the deprecated type 0, so that every
switch refuses the message, whatever the command, and whatever table, priority, cookie, flags and
instructions the user assigns, as the documentation asks. -/
theorem switch_newFlowMod_false (c : UInt8) (f : FlowMod)
    (hf : f.mtch = (newFlowMod c none).mtch) (hl : 8 + f.writeTo.out.length ≤ 65535) :
    ∃ msg, ((requestOf 14 f.writeTo).writeTo recorder []).dst = [msg] ∧
      ((requestOf 14 f.writeTo).writeTo recorder []).err = none ∧
      ∀ {π : Type} (R : SwRules π) (S : List SwEntry), R.flowMod msg S = .error .badMatch := by
  have hw : f.writeTo = ⟨f.writeTo.out, f.writeTo.out.length, none⟩ := by
    rw [FlowMod.out_eq]; simp; omega
  obtain ⟨msg, h1, h2, -, -, h5⟩ := request_writeTo (requestOf 14 f.writeTo) f.writeTo.out hw hl []
  refine ⟨msg, h1, h2, fun R S => ?_⟩
  have hlay := flowMod_layout f
  rw [hf, show (newFlowMod c none).mtch = Match.zero from rfl,
    show Match.zero.writeTo.out = [0, 0, 0, 4, 0, 0, 0, 0] by decide] at hlay
  simp only [Layout, List.drop_drop, Nat.reduceAdd] at h5 hlay
  obtain ⟨-, -, -, -, -, -, -, -, -, c7, c8⟩ := h5
  obtain ⟨-, -, -, -, -, -, -, -, -, -, -, -, -, -, -, -, -, -, -, -, -, -, -, -, l1, l2, -⟩ := hlay
  have hd : msg.drop 8 = f.writeTo.out := by
    have := List.take_append_drop f.writeTo.out.length (msg.drop 8)
    rw [c7, List.drop_drop, c8, List.append_nil] at this
    exact this.symm
  have e1 : numAt msg 48 2 = 0 := by
    rw [numAt, show (48 : Nat) = 8 + 40 from rfl, ← List.drop_drop, hd]
    have := congrArg (List.take 2) l2
    rw [List.take_take] at this
    rw [show min 2 [0, 0, 0, 4, 0, 0, 0, (0 : UInt8)].length = 2 from rfl] at this
    rw [this]; rfl
  simp [SwRules.flowMod, e1]

/-- What a switch reads in the bytes of a flow modification. -/
private theorem mod_reads (f : FlowMod) (hv : f.mtch.Valid) (hm : f.mtch.type = 1)
    (hl : 8 + f.writeTo.out.length ≤ 65535) :
    ∃ msg, ((requestOf 14 f.writeTo).writeTo recorder []).dst = [msg] ∧
      ((requestOf 14 f.writeTo).writeTo recorder []).err = none ∧
      numAt msg 8 8 = f.cookie.toNat ∧ numAt msg 16 8 = f.cookieMask.toNat ∧
      numAt msg 24 1 = f.table.toNat ∧ numAt msg 25 1 = f.command.toNat ∧
      numAt msg 30 2 = f.priority.toNat ∧ numAt msg 36 4 = f.outPort.toNat ∧
      numAt msg 40 4 = f.outGroup.toNat ∧ numAt msg 44 2 = f.flags.toNat ∧ numAt msg 48 2 = 1 ∧
      modFields msg = f.mtch.fields.flatMap (fun x => x.writeTo.out) ∧
      modInstrs msg = f.instructions.flatMap (fun i => i.writeTo.out) := by
  have hw : f.writeTo = ⟨f.writeTo.out, f.writeTo.out.length, none⟩ := by
    rw [FlowMod.out_eq]; simp; omega
  obtain ⟨msg, h1, h2, -, -, h5⟩ := request_writeTo (requestOf 14 f.writeTo) f.writeTo.out hw hl []
  refine ⟨msg, h1, h2, ?_⟩
  have hlay := flowMod_layout f
  obtain ⟨len, pd, -, g2, g3, g4, g5⟩ := match_layout f.mtch hv
  have hlen := g5.length
  simp only [width_cons, width_nil, Fld.width] at hlen
  simp only [Layout, List.drop_drop, Nat.reduceAdd] at h5 hlay g5
  obtain ⟨-, -, -, -, -, -, -, -, -, c7, c8⟩ := h5
  obtain ⟨-, l1, -, l2, -, l3, -, l4, -, -, -, -, -, l5, -, -, -, l6, -, l7, -, l8, -, -, l9, l10,
    l11, l12, l13⟩ := hlay
  obtain ⟨-, k1, -, k2, -, k3, -⟩ := g5
  have hd : msg.drop 8 = f.writeTo.out := by
    have := List.take_append_drop f.writeTo.out.length (msg.drop 8)
    rw [c7, List.drop_drop, c8, List.append_nil] at this
    exact this.symm
  have hn : ∀ off k, numAt msg (8 + off) k = getBE ((f.writeTo.out.drop off).take k) := by
    intro off k; rw [numAt, ← List.drop_drop, hd]
  have hp : ∀ i j, i + j ≤ f.mtch.writeTo.out.length →
      (f.writeTo.out.drop (40 + i)).take j = (f.mtch.writeTo.out.drop i).take j := by
    intro i j hij
    have : (f.mtch.writeTo.out.drop i).take j =
        ((f.writeTo.out.drop 40).take f.mtch.writeTo.out.length |>.drop i).take j := by rw [l10]
    rw [this, List.drop_take, List.take_take, List.drop_drop]
    congr 1
    omega
  have e2 : numAt msg 50 2 = len := by
    rw [hn 42 2, hp 2 2 (by omega), k2]
  refine ⟨by rw [hn 0 8]; simpa using l1, by rw [hn 8 8, l2], by rw [hn 16 1, l3], by rw [hn 17 1, l4],
    by rw [hn 22 2, l5], by rw [hn 28 4, l6], by rw [hn 32 4, l7], by rw [hn 36 2, l8],
    by rw [hn 40 2, hp 0 2 (by omega), List.drop_zero, k1, hm]; rfl, ?_, ?_⟩
  · rw [modFields, e2, show (52 : Nat) = 8 + (40 + 4) from rfl, ← List.drop_drop, hd]
    rw [hp 4 (len - 4) (by omega)]
    have : len - 4 = (f.mtch.fields.flatMap (fun x => x.writeTo.out)).length := by omega
    rw [this]; exact k3
  · have e3 : 48 + (len + 7) / 8 * 8 = 8 + (40 + f.mtch.writeTo.out.length) := by omega
    rw [modInstrs, e2, e3, ← List.drop_drop, hd]
    have := List.take_append_drop (f.instructions.flatMap (fun i => i.writeTo.out)).length
      (f.writeTo.out.drop (40 + f.mtch.writeTo.out.length))
    rw [l12, List.drop_drop, l13, List.append_nil] at this
    exact this.symm

/-- C114.  Any flow modification that adds an entry, for example one of `NewFlowMod(0, p)` with
the instructions assigned: the switch has the entry with the table, priority, cookie, match
fields and instructions of the message, in the place of the one with the same match and
priority; nothing else is changed. -/
theorem switch_add (f : FlowMod) (hv : f.mtch.Valid) (hm : f.mtch.type = 1)
    (hc : f.command = 0) (ht : f.table ≠ 255) (hf : f.flags.toNat / 2 % 2 = 0)
    (hl : 8 + f.writeTo.out.length ≤ 65535) :
    ∃ msg, ((requestOf 14 f.writeTo).writeTo recorder []).dst = [msg] ∧
      ((requestOf 14 f.writeTo).writeTo recorder []).err = none ∧
      ∀ {π : Type} (R : SwRules π) (S : List SwEntry),
        R.flowMod msg S = .ok (S.filter (fun e => !(e.table == f.table.toNat &&
          e.priority == f.priority.toNat &&
          R.same e.fields (f.mtch.fields.flatMap (fun x => x.writeTo.out)))) ++
          [⟨f.table.toNat, f.priority.toNat, f.cookie.toNat,
            f.mtch.fields.flatMap (fun x => x.writeTo.out),
            f.instructions.flatMap (fun i => i.writeTo.out)⟩]) := by
  obtain ⟨msg, h1, h2, a1, -, a3, a4, a5, -, -, a8, a9, a10, a11⟩ := mod_reads f hv hm hl
  refine ⟨msg, h1, h2, fun R S => ?_⟩
  have ht' : f.table.toNat ≠ 255 := fun h => ht (UInt8.toNat_inj.1 h)
  simp only [SwRules.flowMod, a1, a3, a4, a5, a8, a9, a10, a11, hc]
  simp [ht', hf]

/-- C114.  Any flow modification that deletes: the entries that go are those of its table (255:
any), at least as specific as its match, with its port and its group among the outputs unless
they are `PortAny` and `GroupAny`, and with its cookie under its mask. -/
theorem switch_delete (f : FlowMod) (hv : f.mtch.Valid) (hm : f.mtch.type = 1)
    (hc : f.command = 3) (hl : 8 + f.writeTo.out.length ≤ 65535) :
    ∃ msg, ((requestOf 14 f.writeTo).writeTo recorder []).dst = [msg] ∧
      ((requestOf 14 f.writeTo).writeTo recorder []).err = none ∧
      ∀ {π : Type} (R : SwRules π) (S : List SwEntry), ∃ S', R.flowMod msg S = .ok S' ∧
        ∀ e, e ∈ S' ↔ e ∈ S ∧ ¬((f.table = 255 ∨ e.table = f.table.toNat) ∧
          R.narrower e.fields (f.mtch.fields.flatMap (fun x => x.writeTo.out)) = true ∧
          (f.outPort = 0xffffffff ∨ f.outPort.toNat ∈ R.ports e.instrs) ∧
          (f.outGroup = 0xffffffff ∨ f.outGroup.toNat ∈ R.groups e.instrs) ∧
          e.cookie &&& f.cookieMask.toNat = f.cookie.toNat &&& f.cookieMask.toNat) := by
  obtain ⟨msg, h1, h2, a1, a2, a3, a4, -, a6, a7, -, a9, a10, -⟩ := mod_reads f hv hm hl
  refine ⟨msg, h1, h2, fun R S => ⟨S.filter (fun e => !R.fits msg e), ?_, fun e => ?_⟩⟩
  · simp only [SwRules.flowMod, a4, a9, hc]
    simp
  · have t1 : f.table.toNat = 255 ↔ f.table = 255 := by rw [← UInt8.toNat_inj]; rfl
    have t2 : f.outPort.toNat = 4294967295 ↔ f.outPort = 4294967295 := by rw [← UInt32.toNat_inj]; rfl
    have t3 : f.outGroup.toNat = 4294967295 ↔ f.outGroup = 4294967295 := by rw [← UInt32.toNat_inj]; rfl
    have : R.fits msg e = true ↔ ((f.table = 255 ∨ e.table = f.table.toNat) ∧
          R.narrower e.fields (f.mtch.fields.flatMap (fun x => x.writeTo.out)) = true ∧
          (f.outPort = 0xffffffff ∨ f.outPort.toNat ∈ R.ports e.instrs) ∧
          (f.outGroup = 0xffffffff ∨ f.outGroup.toNat ∈ R.groups e.instrs) ∧
          e.cookie &&& f.cookieMask.toNat = f.cookie.toNat &&& f.cookieMask.toNat) := by
      simp only [SwRules.fits, a1, a2, a3, a6, a7, a10, Bool.and_eq_true, Bool.or_eq_true,
        beq_iff_eq, List.contains_iff_mem, t1, t2, t3, and_assoc]
    rw [← this]
    simp

/-- C114.  `NewFlowMod(0, p)` for a packet-in with a valid match, with the table and the
instructions assigned: the entry has the match of the packet-in and priority 0, the priority of a
table-miss entry, unless the user assigns another. -/
theorem switch_newFlowMod_packet (b : UInt32) (m : Match) (hv : m.Valid) (hm : m.type = 1)
    (t : UInt8) (ht : t ≠ 255) (is : List Instruction)
    (hl : 8 + ({ newFlowMod 0 (some (b, m)) with table := t, instructions := is }).writeTo.out.length ≤ 65535) :
    ∃ msg, ((requestOf 14 ({ newFlowMod 0 (some (b, m)) with table := t, instructions := is }).writeTo).writeTo
        recorder []).dst = [msg] ∧
      ∀ {π : Type} (R : SwRules π) (S : List SwEntry), ∃ S', R.flowMod msg S = .ok S' ∧
        (⟨t.toNat, 0, 0, m.fields.flatMap (fun x => x.writeTo.out),
          is.flatMap (fun i => i.writeTo.out)⟩ : SwEntry) ∈ S' := by
  obtain ⟨msg, h1, -, h3⟩ := switch_add
    { newFlowMod 0 (some (b, m)) with table := t, instructions := is } hv hm rfl ht (by simp [newFlowMod]) hl
  exact ⟨msg, h1, fun R S => ⟨_, h3 R S, List.mem_append_right _ (List.mem_singleton.2 rfl)⟩⟩

/-- A switch whose entries match everything or nothing, for the examples. -/
private def tinyRules : SwRules Unit :=
  ⟨fun a b => a == b || b == [], fun a b => a == b, fun _ _ => true, fun a _ => a == [],
    fun _ => [], fun _ => []⟩

private theorem tinyRules_lawful : tinyRules.Lawful := ⟨by simp [tinyRules], fun _ => rfl⟩

/-- Non-vacuity: there is a lawful switch; flushing table 3 leaves the entry of table 4. -/
example : ∃ msg, ((tableFlush 3).writeTo recorder []).dst = [msg] ∧
    tinyRules.flowMod msg [⟨3, 7, 9, [1], [2]⟩, ⟨4, 0, 0, [], []⟩] = .ok [⟨4, 0, 0, [], []⟩] := by
  obtain ⟨msg, h1, -, h3⟩ := switch_tableFlush 3
  exact ⟨msg, h1, by rw [h3 tinyRules tinyRules_lawful]; rfl⟩

/-- Non-vacuity: a match on an input port and a modification made from no packet-in. -/
example : (Match.mk 1 [matchInPort 5]).Valid ∧
    8 + (newFlowMod 0 none).writeTo.out.length ≤ 65535 := by decide +kernel

/-- What a flow modification means, in terms of its members. -/
def modMeans {π : Type} (R : SwRules π) (f : FlowMod) (S : List SwEntry) : List SwEntry :=
  let fields := f.mtch.fields.flatMap (fun x => x.writeTo.out)
  if f.command = 0 then
    S.filter (fun e => !(e.table == f.table.toNat && e.priority == f.priority.toNat &&
      R.same e.fields fields)) ++
      [⟨f.table.toNat, f.priority.toNat, f.cookie.toNat, fields,
        f.instructions.flatMap (fun i => i.writeTo.out)⟩]
  else S.filter (fun e => !((f.table.toNat == 255 || e.table == f.table.toNat) &&
    R.narrower e.fields fields &&
    (f.outPort.toNat == 0xffffffff || (R.ports e.instrs).contains f.outPort.toNat) &&
    (f.outGroup.toNat == 0xffffffff || (R.groups e.instrs).contains f.outGroup.toNat) &&
    e.cookie &&& f.cookieMask.toNat == f.cookie.toNat &&& f.cookieMask.toNat))

/-- A modification that adds or deletes and that a switch accepts. -/
def Accepted (f : FlowMod) : Prop :=
  f.mtch.Valid ∧ f.mtch.type = 1 ∧ 8 + f.writeTo.out.length ≤ 65535 ∧
    ((f.command = 0 ∧ f.table ≠ 255 ∧ f.flags.toNat / 2 % 2 = 0) ∨ f.command = 3)

private theorem mod_one (f : FlowMod) (h : Accepted f) :
    ∃ msg, ((requestOf 14 f.writeTo).writeTo recorder []).dst = [msg] ∧ 8 ≤ msg.length ∧
      (∀ t, numAt (msg ++ t) 2 2 = msg.length) ∧
      ∀ {π : Type} (R : SwRules π) (S : List SwEntry), R.flowMod msg S = .ok (modMeans R f S) := by
  obtain ⟨hv, hm, hl, hc⟩ := h
  have hw : f.writeTo = ⟨f.writeTo.out, f.writeTo.out.length, none⟩ := by
    rw [FlowMod.out_eq]; simp; omega
  obtain ⟨msg', k1, -, -, k4, k5⟩ := request_writeTo (requestOf 14 f.writeTo) f.writeTo.out hw hl []
  obtain ⟨msg, h1, -, a1, a2, a3, a4, -, a6, a7, -, a9, a10, -⟩ := mod_reads f hv hm hl
  have he : msg' = msg := by
    rw [h1] at k1; simpa using k1.symm
  subst he
  simp only [Layout, List.drop_drop, Nat.reduceAdd] at k5
  refine ⟨msg', h1, by omega, fun t => ?_, fun R S => ?_⟩
  · rw [numAt, List.drop_append_of_le_length (by omega), List.take_append_of_le_length (by simp; omega)]
    exact k5.2.2.2.2.2.1
  · rcases hc with ⟨c1, c2, c3⟩ | c1
    · obtain ⟨msg2, b1, -, b3⟩ := switch_add f hv hm c1 c2 c3 hl
      have he : msg2 = msg' := by
        rw [h1] at b1; simpa using b1.symm
      subst he
      rw [b3 R S, modMeans, if_pos c1]
    · rw [modMeans, if_neg (by rw [c1]; decide)]
      simp only [SwRules.flowMod, SwRules.fits, a1, a2, a3, a4, a6, a7, a9, a10, c1]
      simp

/-- C114.  Any sequence of flow modifications that add or delete, one after another on one
connection: the switch, which has nothing but the bytes, finds the messages in them and its tables
become what the modifications mean, done in the order in which they were sent. -/
theorem switch_sequence {π : Type} (R : SwRules π) (fs : List FlowMod) (h : ∀ f ∈ fs, Accepted f) :
    ∀ (S : List SwEntry) (fuel : Nat), fs.length ≤ fuel →
      R.stream fuel (fs.flatMap fun f => ((requestOf 14 f.writeTo).writeTo recorder []).dst.flatten) S =
        fs.foldl (fun S f => modMeans R f S) S := by
  induction fs with
  | nil =>
    intro S fuel _
    cases fuel with
    | zero => rfl
    | succ n => rfl
  | cons f fs ih =>
    intro S fuel hf
    cases fuel with
    | zero => simp at hf
    | succ n =>
      obtain ⟨msg, h1, h2, h3, h4⟩ := mod_one f (h f (by simp))
      rw [List.flatMap_cons, h1, List.flatten_singleton, SwRules.stream, h3,
        if_neg (by simp; omega), List.take_left, List.drop_left, h4 R S, List.foldl_cons]
      exact ih (fun g hg => h g (List.mem_cons_of_mem _ hg)) _ n (by simpa using hf)

/-- Non-vacuity: the message of `TableFlush` and an entry with instructions. -/
example : Accepted (tableFlushMod 3) ∧ Accepted { newFlowMod 0 (some (0xffffffff, ⟨1, [matchInPort 5]⟩)) with
    table := 2, instructions := [.applyActions [.output 0xfffffffd 0xffff]] } := by
  constructor
  · exact ⟨by decide +kernel, rfl, by decide +kernel, .inr rfl⟩
  · exact ⟨by decide +kernel, rfl, by decide +kernel, .inl ⟨rfl, by decide, by decide +kernel⟩⟩

/-- Non-vacuity: an entry for port 5 in table 2 that sends to the controller. -/
example : (Match.mk 1 [matchInPort 5]).Valid ∧ (Match.mk 1 [matchInPort 5]).type = 1 ∧
    8 + ({ newFlowMod 0 (some (0xffffffff, ⟨1, [matchInPort 5]⟩)) with
      table := 2, instructions := [.applyActions [.output 0xfffffffd 0xffff]] }).writeTo.out.length = 88 := by
  decide +kernel

end Verif.Props
