import Verif.Model.Visitor
/-!
# Counting the calls made on a buffer

A user can wrap a `ParseBuf` in a type that forwards every call and counts them. `calls` is what such a wrapper shows
after a call of the parser.
-/
namespace Perf

/-- A buffer and the number of `chunk` and `advance` calls it has answered. -/
structure Counted (β : Type) where
  buf : β
  calls : Nat

instance {β : Type} [ParseBuf β] : ParseBuf (Counted β) where
  chunk b := ((ParseBuf.chunk b.buf).1, ⟨(ParseBuf.chunk b.buf).2, b.calls + 1⟩)
  advance b n := (ParseBuf.advance b.buf n).map fun b' => ⟨b', b.calls + 1⟩
  hint b := ParseBuf.hint b.buf
  steps b := ParseBuf.steps b.buf

/-- The buffer inside a parser, wrapped with a fresh counter. -/
def Parser.counted {β : Type} (p : Parser β) : Parser (Counted β) :=
  { config := p.config, data := ⟨⟨p.data.buf, 0⟩, p.data.offset⟩ }

/-- Forget the counter. -/
def Parser.uncounted {β : Type} (p : Parser (Counted β)) : Parser β :=
  { config := p.config, data := ⟨p.data.buf.buf, p.data.offset⟩ }

/-- The calls counted so far. -/
def Parser.calls {β : Type} (p : Parser (Counted β)) : Nat := p.data.buf.calls

/-- As long as `J` holds a chunk is never empty, and `J` stays true. -/
structure Prompt {β : Type} [ParseBuf β] (J : β → Prop) : Prop where
  chunk : ∀ b, J b → J (ParseBuf.chunk b).2
  advance : ∀ b n b', J b → ParseBuf.advance b n = some b' → J b'
  ne : ∀ b c, J b → (ParseBuf.chunk b).1 = .ok c → c.data ≠ []

end Perf
