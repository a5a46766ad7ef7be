import Verif.Props.ErrorExact
import Verif.Props.Ahead
/-!
# C100 for every reader

Also for one whose `read` calls fail, or say end of file, and which then goes on.
-/
namespace Perf
variable {o : Order} {cfg : ParseConfig} {O : Type}

/-- The outcome of a call on a reader with these bytes before its next error or end of file, which is reported as `fin`. -/
def LiveOutcome (o : Order) (cfg : ParseConfig) (bs : List Byte) (fin : ParseError) (x : Except Fault (Record List × Metadata)) : Prop :=
  (Complete cfg bs ∧ Outcome o cfg (lentPieces bs) x) ∨ (¬ Complete cfg bs ∧ x = .error (.err fin))

/-- The outcomes of as many calls: each leaves the reader with what it did not need. -/
def LiveOutcomes (o : Order) (cfg : ParseConfig) : Nat → BufReader → List (Except Fault (Record List × Metadata)) → Prop
  | 0, _, xs => xs = []
  | k + 1, r, xs => ∃ x xs', xs = x :: xs' ∧ LiveOutcome o cfg r.all (scriptFin r.script) x ∧ LiveOutcomes o cfg k (r.taken (recordNeed cfg r.all)) xs'

theorem LiveOutcome.unique (hw : cfg.Wf) (hs : Src cfg o) {bs : List Byte} {fin : ParseError} {x y : Except Fault (Record List × Metadata)}
    (hx : LiveOutcome o cfg bs fin x) (hy : LiveOutcome o cfg bs fin y) : x = y := by
  rcases hx with ⟨h1, h2⟩ | ⟨h1, h2⟩ <;> rcases hy with ⟨h3, h4⟩ | ⟨h3, h4⟩
  · exact c100_unique hw hs h2 h4
  · exact absurd h1 h3
  · exact absurd h3 h1
  · rw [h2, h4]

theorem LiveOutcomes.unique (hw : cfg.Wf) (hs : Src cfg o) {k : Nat} {r : BufReader} {xs ys : List (Except Fault (Record List × Metadata))}
    (h : LiveOutcomes o cfg k r xs) (h' : LiveOutcomes o cfg k r ys) : xs = ys := by
  induction k generalizing r xs ys with
  | zero => rw [show xs = [] from h, show ys = [] from h']
  | succ k ih =>
    obtain ⟨x, xs', rfl, h1, h2⟩ := h
    obtain ⟨y, ys', rfl, h3, h4⟩ := h'
    rw [ih h2 h4, h1.unique hw hs h3]

/-- The end of the input does not matter to a record that is all there. -/
theorem Piped.record_complete (v : Visitor Cow O) {bs : List Byte} (fin : ParseError) (h : Complete cfg bs) :
    (Piped.record v).result (.through bs fin cfg) = (Piped.record v).result (.through bs .eof cfg) := by
  have hc : Complete cfg (bs.take (firstLen cfg bs)) := by
    have h1 : firstLen cfg bs = max 8 (sizeField cfg bs) := by
      unfold firstLen
      exact Nat.min_eq_left (Nat.max_le.2 h)
    have h2 : sizeField cfg (bs.take (firstLen cfg bs)) = sizeField cfg bs := by
      unfold sizeField
      rw [List.drop_take, List.take_take, Nat.min_eq_left (by omega)]
    have h3 := firstLen_le cfg bs
    refine ⟨by rw [List.length_take]; omega, ?_⟩
    show sizeField cfg _ ≤ _
    rw [h2, List.length_take]
    omega
  rw [Piped.record_alone v (.through bs fin cfg) rfl (.inl hc), Piped.record_alone v (.through bs .eof cfg) rfl (.inl hc)]
  rfl

theorem Piped.outcome (hw : cfg.Wf) (hs : Src cfg o) (bs : List Byte) : Outcome o cfg (lentPieces bs) (seenAs ((Piped.record pairVisitor).result (.through bs .eof cfg))) := by
  have h := (Lies.lentBuf bs hw).outcome SewnBuf.lentBuf hs
  rw [(c86_temporary (Lies.lentBuf bs hw).rep rfl pairVisitor).1] at h
  exact h

/-- What one call returns. -/
theorem BufReader.outcome (p : Parser BufReader) (hw : p.config.Wf) (hs : Src p.config o) :
    LiveOutcome o p.config p.data.buf.all (scriptFin p.data.buf.script) (seenAs (P.record pairVisitor p).res) := by
  by_cases h : Complete p.config p.data.buf.all
  · refine .inl ⟨h, ?_⟩
    have h1 : (P.record pairVisitor p).res = (Piped.record pairVisitor).result (.through p.data.buf.all .eof p.config) := by
      rw [(c86_temporary (RepP.bufReader p hw) rfl pairVisitor).1, ← Piped.record_complete pairVisitor (scriptFin p.data.buf.script) h]
      exact Piped.record_congr _ ⟨rfl, rfl, rfl⟩ rfl rfl
    rw [h1]
    exact Piped.outcome hw hs _
  · refine .inr ⟨h, ?_⟩
    have h2 := c06_truncated (RepP.bufReader p hw) pairVisitor (by
      show p.data.buf.all.length < 8 ∨ 8 ≤ sizeField p.config p.data.buf.all ∧ p.data.buf.all.length < sizeField p.config p.data.buf.all
      rcases Nat.lt_or_ge p.data.buf.all.length 8 with h8 | h8
      · exact .inl h8
      · have : ¬ sizeField p.config p.data.buf.all ≤ p.data.buf.all.length := fun h9 => h ⟨h8, h9⟩
        exact .inr (by omega))
    rw [h2]
    rfl

/-- **C100** What any number of calls on any reader returns, exactly, whatever its `read` calls return. -/
theorem c100_live (p : Parser BufReader) (hw : p.config.Wf) (hs : Src p.config o) (k : Nat) (xs : List (Except Fault (Record List × Metadata))) :
    (visitMany pairVisitor k p).1.map seenAs = xs ↔ LiveOutcomes o p.config k p.data.buf xs := by
  have h : LiveOutcomes o p.config k p.data.buf ((visitMany pairVisitor k p).1.map seenAs) := by
    clear xs
    induction k generalizing p with
    | zero => rfl
    | succ k ih =>
      obtain ⟨h1, h2⟩ := P.record_taken p hw pairVisitor
      have i := ih (P.record pairVisitor p).st (by rw [h2]; exact hw) (by rw [h2]; exact hs)
      rw [h1, h2] at i
      exact ⟨seenAs (P.record pairVisitor p).res, _, rfl, BufReader.outcome p hw hs, i⟩
  constructor
  · rintro rfl
    exact h
  · exact fun h' => h.unique hw hs h'

/-- A record that is wrong, in two portions, then a failing `read`, then an end of file, then the record again. -/
def demoLiveWrong : List ReadEvent :=
  [.data (demoWrongStack.take 30), .data (demoWrongStack.drop 30), .error ⟨false, "timed out"⟩, .data [], .data demoWrongStack]

/-- `c100_live` for it: four calls. -/
example : (visitMany pairVisitor 4 (Parser.new (⟨[], demoLiveWrong⟩ : BufReader) demoWrongCfg)).1.map seenAs =
    [.error (.err (.custom .invalidRecord "stack dyn_size was greater than the record size")), .error (.err (.new "timed out")), .error (.err .eof),
      .error (.err (.custom .invalidRecord "stack dyn_size was greater than the record size"))] := by
  have hw : demoWrongCfg.Wf := ParseConfig.wf_little _ _
  refine (c100_live (o := .little) (Parser.new (⟨[], demoLiveWrong⟩ : BufReader) demoWrongCfg) hw (Src.little _ _) 4 _).2 ?_
  have hc : Complete demoWrongCfg demoWrongStack := by unfold Complete; decide +kernel
  refine ⟨_, _, rfl, .inl ⟨?_, .inl ?_⟩, _, _, rfl, .inr ⟨?_, ?_⟩, _, _, rfl, .inr ⟨?_, ?_⟩, _, _, rfl, .inl ⟨?_, .inl ?_⟩, rfl⟩
  · exact hc
  · exact demoWrongStack_wrong
  · unfold Complete; decide +kernel
  · rfl
  · unfold Complete; decide +kernel
  · rfl
  · exact hc
  · exact demoWrongStack_wrong

end Perf
