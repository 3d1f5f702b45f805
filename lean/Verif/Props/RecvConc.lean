import Verif.RecvConc
import Verif.MutexLive
import Verif.Props.Request

/-!
# Property C52: concurrent receivers
-/

namespace Verif.Props

open Verif

/-- Reachable states of goroutines that call `Receive` on one connection whose transport will
deliver `r`; goroutine `i` does so `progs i` times.  `guarded` says whether they hold a common
mutex during the call. -/
abbrev RecvReach (guarded : Bool) (r : Rd) (progs : Nat → Nat)
    (c : GoSys Unit Rd RPos (Option Request × Option Err)) : Prop :=
  GoSys.Reach recvMachine guarded (fun _ => .inl ()) (.init r fun i => .replicate (progs i) ()) c

private theorem runSeq_receiveN (r : Rd) (ops : List Unit) :
    runSeq recvRun (fun _ : Unit => (.inl () : Unit ⊕ (Option Request × Option Err))) r ops =
      receiveN ops.length r := by
  induction ops generalizing r with
  | nil => rfl
  | cons op t ih =>
    simp only [runSeq, runCall, recvRun, List.length_cons, receiveN, ih]

/-- C52, the part that holds: if the callers themselves serialise their `Receive` calls with a
mutex, then over any fragmentation and any interleaving the calls return the messages that
were sent, whole, in the order of the calls, none lost, repeated or mixed. -/
theorem receive_concurrent_partial (F : Err) (qs : List (Request × Bytes))
    (h : ∀ p ∈ qs, p.1.body.Yields p.2 ∧ 8 + p.2.length ≤ 65535) (r : Rd) (tail : Bytes)
    (hr : r.Ok F) (hs : r.Sep) (hc : r.content = serialise (qs.map (·.1)) ++ tail)
    (progs : Nat → Nat) (c : GoSys Unit Rd RPos (Option Request × Option Err))
    (hreach : RecvReach true r progs c) (hn : c.log.length ≤ qs.length) :
    c.log.map (·.2.2) = (qs.take c.log.length).map (fun p => (some ⟨
      { p.1.header with length := UInt16.ofNat (8 + p.2.length) }, .buffer p.2, 1,
      (p.1.header.version - 1).toNat, p.2.length⟩, none)) := by
  have inv := GoSys.inv recvMachine_sound (fun _ => .inl ()) r _ c hreach
  rw [inv.res, runSeq_receiveN, List.length_map]
  have hlen : (qs.take c.log.length).length = c.log.length := by simp; omega
  have hsplit : serialise (qs.map (·.1)) = serialise ((qs.take c.log.length).map (·.1)) ++
      ((qs.drop c.log.length).map (fun p => Header.bytes
        { p.1.header with length := UInt16.ofNat (8 + p.2.length) } ++ p.2)).flatten := by
    rw [serialise, serialise, foldl_recorder qs h, foldl_recorder (qs.take c.log.length)
      (fun p hp => h p (List.mem_of_mem_take hp))]
    simp only [List.nil_append]
    rw [← List.flatten_append, ← List.map_append, List.take_append_drop]
  rw [hsplit, List.append_assoc] at hc
  have := (stream_framing F (qs.take c.log.length) (fun p hp => h p (List.mem_of_mem_take hp)) r _
    hr hs hc).1
  rw [hlen] at this
  exact this

/-- C52.  With a mutex held by the callers there is no deadlock either. -/
theorem receive_concurrent_progress (r : Rd) (progs : Nat → Nat)
    (c : GoSys Unit Rd RPos (Option Request × Option Err)) (hreach : RecvReach true r progs c)
    (i : Nat) (hi : (c.th i).pc ≠ none ∨ (c.th i).todo ≠ []) :
    ∃ c', GoSys.Step recvMachine true (fun _ => .inl ()) c c' :=
  (GoSys.inv recvMachine_sound (fun _ => .inl ()) r _ c hreach).progress recvMachine_live i hi

/-- C64.  Receivers that hold a common mutex cannot go on for ever: every `Receive` returns,
provided the transport's `Read` does. -/
theorem receive_concurrent_terminates (r : Rd) (progs : Nat → Nat) (N : Nat) (hN : ∀ i, N ≤ i → progs i = 0)
    (ex : Nat → GoSys Unit Rd RPos (Option Request × Option Err))
    (h0 : ex 0 = .init r fun i => .replicate (progs i) ()) :
    ¬ ∀ n, GoSys.Step recvMachine true (fun _ => .inl ()) (ex n) (ex (n + 1)) :=
  GoSys.terminates recvMachine_sound (fun _ => .inl ()) r _ N (fun i hi => by rw [hN i hi]; rfl) ex h0

/-- C64.  When nothing more can happen, every goroutine has made all its calls. -/
theorem receive_concurrent_final (r : Rd) (progs : Nat → Nat)
    (c : GoSys Unit Rd RPos (Option Request × Option Err)) (hreach : RecvReach true r progs c)
    (hf : ∀ c', ¬ GoSys.Step recvMachine true (fun _ => .inl ()) c c') :
    c.mu = none ∧ ∀ i, (c.log.filter (·.1 = i)).length = progs i := by
  obtain ⟨h1, h2⟩ := GoSys.final recvMachine_sound (fun _ => .inl ()) r _ recvMachine_live c hreach hf
  refine ⟨h1, fun i => ?_⟩
  have := congrArg List.length (h2 i)
  simpa using this

/-- The two messages of the counterexample: an echo request with transaction 1 and an echo
reply with transaction 2. -/
def mixed : List Request :=
  [{ newRequest 2 none with header := ⟨4, 2, 0, 1⟩ }, { newRequest 3 none with header := ⟨4, 3, 0, 2⟩ }]

/-- C52 is false for the connection as it is: `Receive` takes no lock.  Two messages arrive,
two goroutines call `Receive` once each.  Goroutine 1 gets an error although both messages
are well formed, goroutine 0 a message that was never sent: the type of the first one with
the transaction of the second. -/
theorem receive_concurrent_false : ∃ (r : Rd) (c : GoSys Unit Rd RPos (Option Request × Option Err)),
    r.content = serialise mixed ∧ r.Ok .eof ∧ r.Sep ∧
    RecvReach false r (fun i => if i < 2 then 1 else 0) c ∧
    ∃ q, c.log = [(1, (), (none, some .corruptedHeader)), (0, (), (some q, none))] ∧
      q.header = ⟨4, 2, 8, 2⟩ := by
  have e : serialise mixed = [4, 2, 0, 8, 0, 0, 0, 1, 4, 3, 0, 8, 0, 0, 0, 2] := by decide +kernel
  have hreach : ∃ c, RecvReach false
      (.buf [] none (.src [4, 2, 0, 8, 0, 0, 0, 1, 4, 3, 0, 8, 0, 0, 0, 2] [] .eof false))
      (fun i => if i < 2 then 1 else 0) c ∧
      c.log = [(1, (), (none, some .corruptedHeader)),
        (0, (), (some ⟨⟨4, 2, 8, 2⟩, .buffer [], 1, 3, 0⟩, none))] := by
    let s (l : List UInt8) : Rd := .buf l none (.src [] [] .eof false)
    refine ⟨_, .tail (.tail (.tail (.tail (.tail (.tail (.tail (.tail (.tail (.tail (.tail (.tail (.tail
      (.tail (.tail .refl
      (.lock _ 0 () [] () rfl rfl (by simp)))
      (.step _ 0 [] () (.hdr []) (.hdr [4]) (s [2, 0, 8, 0, 0, 0, 1, 4, 3, 0, 8, 0, 0, 0, 2]) rfl (by rfl)))
      (.step _ 0 [] () (.hdr [4]) (.hdr [4, 2]) (s [0, 8, 0, 0, 0, 1, 4, 3, 0, 8, 0, 0, 0, 2]) rfl (by rfl)))
      (.step _ 0 [] () (.hdr [4, 2]) (.hdr [4, 2, 0, 8]) (s [0, 0, 0, 1, 4, 3, 0, 8, 0, 0, 0, 2]) rfl (by rfl)))
      (.lock _ 1 () [] () rfl rfl (by simp)))
      (.step _ 1 [] () (.hdr []) (.hdr [0]) (s [0, 0, 1, 4, 3, 0, 8, 0, 0, 0, 2]) rfl (by rfl)))
      (.step _ 1 [] () (.hdr [0]) (.hdr [0, 0]) (s [0, 1, 4, 3, 0, 8, 0, 0, 0, 2]) rfl (by rfl)))
      (.step _ 1 [] () (.hdr [0, 0]) (.hdr [0, 0, 0, 1]) (s [4, 3, 0, 8, 0, 0, 0, 2]) rfl (by rfl)))
      (.step _ 1 [] () (.hdr [0, 0, 0, 1]) (.hdr [0, 0, 0, 1, 4, 3, 0, 8]) (s [0, 0, 0, 2]) rfl (by rfl)))
      (.step _ 1 [] () (.hdr [0, 0, 0, 1, 4, 3, 0, 8]) (.done none (some .corruptedHeader))
        (s [0, 0, 0, 2]) rfl (by rfl)))
      (.unlock _ 1 [] () _ (none, some .corruptedHeader) rfl rfl))
      (.step _ 0 [] () (.hdr [4, 2, 0, 8]) (.hdr [4, 2, 0, 8, 0, 0, 0, 2]) (s []) rfl (by rfl)))
      (.step _ 0 [] () (.hdr [4, 2, 0, 8, 0, 0, 0, 2]) (.body ⟨4, 2, 8, 2⟩ []) (s []) rfl (by rfl)))
      (.step _ 0 [] () (.body ⟨4, 2, 8, 2⟩ []) (.done (some ⟨⟨4, 2, 8, 2⟩, .buffer [], 1, 3, 0⟩) none) (s []) rfl (by rfl)))
      (.unlock _ 0 [] () _ (some ⟨⟨4, 2, 8, 2⟩, .buffer [], 1, 3, 0⟩, none) (by rfl) (by rfl)), by rfl⟩
  obtain ⟨c, h1, h2⟩ := hreach
  refine ⟨_, c, ?_, ?_, ?_, h1, _, h2, rfl⟩
  · rw [e]; rfl
  · exact ⟨rfl, .inl rfl⟩
  · rfl

/-- Non-vacuity of the partial theorem: with the mutex the same two goroutines can both
finish (here the first one has). -/
example : ∃ c, RecvReach true (.buf [] none (.src [4, 2, 0, 8, 0, 0, 0, 1] [] .eof false))
    (fun i => if i < 2 then 1 else 0) c ∧
    c.log.map (·.2.2) = [(some ⟨⟨4, 2, 8, 1⟩, .buffer [], 1, 3, 0⟩, none)] ∧ (c.th 1).todo.length = 1 := by
  let s (l : List UInt8) : Rd := .buf l none (.src [] [] .eof false)
  refine ⟨_, .tail (.tail (.tail (.tail (.tail (.tail (.tail (.tail .refl
      (.lock _ 0 () [] () rfl rfl (by intro _; rfl)))
      (.step _ 0 [] () (.hdr []) (.hdr [4]) (s [2, 0, 8, 0, 0, 0, 1]) rfl (by rfl)))
      (.step _ 0 [] () (.hdr [4]) (.hdr [4, 2]) (s [0, 8, 0, 0, 0, 1]) rfl (by rfl)))
      (.step _ 0 [] () (.hdr [4, 2]) (.hdr [4, 2, 0, 8]) (s [0, 0, 0, 1]) rfl (by rfl)))
      (.step _ 0 [] () (.hdr [4, 2, 0, 8]) (.hdr [4, 2, 0, 8, 0, 0, 0, 1]) (s []) rfl (by rfl)))
      (.step _ 0 [] () (.hdr [4, 2, 0, 8, 0, 0, 0, 1]) (.body ⟨4, 2, 8, 1⟩ []) (s []) rfl (by rfl)))
      (.step _ 0 [] () (.body ⟨4, 2, 8, 1⟩ []) (.done (some ⟨⟨4, 2, 8, 1⟩, .buffer [], 1, 3, 0⟩) none) (s []) rfl (by rfl)))
      (.unlock _ 0 [] () _ (some ⟨⟨4, 2, 8, 1⟩, .buffer [], 1, 3, 0⟩, none) rfl rfl),
    rfl, rfl⟩

end Verif.Props
