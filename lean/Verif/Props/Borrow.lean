import Verif.Proof.Hand
import Verif.Props.Inputs
/-!
# C47: what is borrowed and what is copied
-/
namespace Perf
variable {β : Type} [ParseBuf β] {O : Type}

/-- The `Record` visitor returns the containers it is given. -/
theorem recordVisitor_all {QB : Cow Byte → Prop} {QL : ∀ {T : Type}, Cow T → Prop} {a r : Record Cow} {md : Metadata}
    (ha : a.All QB QL) (h : (recordVisitor Cow).apply a md = .ok r) : r.All QB QL := by
  cases a <;> cases h <;> exact ha

/-- **C47**, one in-memory slice: whatever record is parsed and whoever visits it, every variable-length byte field is a
borrow, and what it borrows is a contiguous part of the input. -/
theorem c47_borrowed (addr : Nat) (bs : List Byte) (cfg : ParseConfig) (v : Visitor Cow O) {r : O}
    (h : (P.record v (Parser.new (⟨addr, bs⟩ : Slice) cfg)).res = .ok r) :
    ∃ (a : Record Cow) (md : Metadata), v.apply a md = .ok r ∧
      a.All (fun c => ∃ d, c = .borrowed d ∧ d <:+: bs) (fun _ => True) := by
  obtain ⟨a, md, h1, h2⟩ := OneBuf.slice.record bs v (p := Parser.new (⟨addr, bs⟩ : Slice) cfg) rfl h
  exact ⟨a, md, h2, h1⟩

/-- **C47**, the same for the record itself. -/
theorem c47_borrowed_record (addr : Nat) (bs : List Byte) (cfg : ParseConfig) {r : Record Cow}
    (h : (P.parseRecord (Parser.new (⟨addr, bs⟩ : Slice) cfg)).res = .ok r) :
    r.All (fun c => ∃ d, c = .borrowed d ∧ d <:+: bs) (fun _ => True) := by
  obtain ⟨a, md, h1, h2⟩ := c47_borrowed addr bs cfg (recordVisitor Cow) h
  exact recordVisitor_all h2 h1

/-- **C47**, any buffer, lawful or not, that mixes borrowed and temporary data in any way. Let `E` hold of every chunk
it hands out as `External` (and of parts of such chunks). Then every nonempty byte field that is not a copy satisfies `E`, and
every list that is not a copy is read in place from bytes satisfying `E`: nothing handed out as `Temporary` is ever borrowed. -/
theorem c47_external {E : List Byte → Prop} {T : β → Prop} (h : Handing E T) (hE : PartClosed E) (v : Visitor Cow O)
    {p : Parser β} (hp : T p.data.buf) {r : O} (hr : (P.record v p).res = .ok r) :
    ∃ (a : Record Cow) (md : Metadata), v.apply a md = .ok r ∧
      a.All (Lent E) (LentL E) := by
  obtain ⟨a, md, h1, h2⟩ := h.record hE v hp hr
  exact ⟨a, md, h2, h1⟩

/-- Copied, or nothing at all. -/
def Cow.Copied {X : Type} (c : Cow X) : Prop := ∀ d, c = .borrowed d → d = []

theorem Record.All.copied {a : Record Cow} (h : a.All (Lent fun _ => False) (LentL fun _ => False)) :
    a.All Cow.Copied Cow.Copied := by
  have hb : ∀ c : Cow Byte, Lent (fun _ => False) c → c.Copied := fun c hc d hd => (hc d hd).resolve_right id
  have hl : ∀ {X : Type} (c : Cow X), LentL (fun _ => False) c → c.Copied := fun c hc d hd => by
    obtain ⟨_, _, _, _, hf, _⟩ := hc d hd
    exact hf.elim
  cases a with
  | sample s =>
    exact ⟨fun a ha => hl _ (h.values a ha), fun a ha => hl _ (h.callchain a ha), fun a ha => hb _ (h.raw a ha),
      fun a ha => hl _ (h.lbr a ha), fun a ha => hl _ (h.regsUser a ha), fun a ha => hb _ (h.stackUser a ha),
      fun a ha => hl _ (h.regsIntr a ha), fun a ha => hb _ (h.aux a ha)⟩
  | textPoke t => exact ⟨hb _ h.1, hb _ h.2⟩
  | namespaces n => exact hl _ h
  | mmap r => exact hb _ h
  | mmap2 r => exact hb _ h
  | comm r => exact hb _ h
  | ksymbol r => exact hb _ h
  | cgroup r => exact hb _ h
  | unknown t d => exact hb _ h
  | _ => exact trivial

/-- **C47**, a buffer that only hands out temporary data, e.g. every `BufReader`: everything in a record is a copy. -/
theorem c47_temporary {T : β → Prop} (hc : ∀ b, T b → T (ParseBuf.chunk b).2)
    (ha : ∀ b n b', T b → ParseBuf.advance b n = some b' → T b')
    (ht : ∀ b c, T b → (ParseBuf.chunk b).1 = .ok c → c.loc = .temporary) (v : Visitor Cow O) {p : Parser β}
    (hp : T p.data.buf) {r : O} (hr : (P.record v p).res = .ok r) :
    ∃ (a : Record Cow) (md : Metadata), v.apply a md = .ok r ∧ a.All Cow.Copied Cow.Copied := by
  have h : Handing (fun _ => False) T := ⟨hc, ha, fun b a d hb h => by cases ht b _ hb h⟩
  obtain ⟨a, md, h1, h2⟩ := h.record ⟨fun _ _ h => h, fun _ _ h => h⟩ v hp hr
  exact ⟨a, md, h2, h1.copied⟩

theorem c47_reader (rd : BufReader) (cfg : ParseConfig) (v : Visitor Cow O) {r : O}
    (hr : (P.record v (Parser.new rd cfg)).res = .ok r) :
    ∃ (a : Record Cow) (md : Metadata), v.apply a md = .ok r ∧ a.All Cow.Copied Cow.Copied := by
  refine c47_temporary (T := fun _ => True) (fun _ _ => trivial) (fun _ _ _ _ _ => trivial) ?_ v (p := Parser.new rd cfg) trivial hr
  intro b c _ h
  change (match b.fillBuf with
    | (.error e, r') => ((.error (.err (.ofIo e)), r') : Except Fault Chunk × BufReader)
    | (.ok [], r') => (.error (.err .eof), r')
    | (.ok (b :: bs), r') => (.ok ⟨.temporary, b :: bs⟩, r')).1 = _ at h
  split at h <;> cases h
  rfl

/-- A COMM record of a process called `ab`. -/
def borrowComm : List Byte := [3, 0, 0, 0, 0, 0, 24, 0, 1, 0, 0, 0, 2, 0, 0, 0, 97, 98, 0, 0, 0, 0, 0, 0]

/-- It parses, and the name is a borrow. -/
theorem demo47_slice : (match (P.parseRecord (Parser.new (⟨1, borrowComm⟩ : Slice) demoCfg)).res with
    | .ok (.comm r) => r.comm == .borrowed [97, 98]
    | _ => false) = true := by decide +kernel

/-- Read through a `BufReader` in two pieces it is a copy. -/
theorem demo47_reader :
    (match (P.parseRecord (Parser.new (⟨[], [.data (borrowComm.take 17), .data (borrowComm.drop 17)]⟩ : BufReader) demoCfg)).res with
    | .ok (.comm r) => r.comm == .owned [97, 98]
    | _ => false) = true := by decide +kernel

/-- In two borrowed pieces: a copy too, since the name is not contiguous. -/
theorem demo47_pieces :
    (match (P.parseRecord (Parser.new (⟨[⟨0, borrowComm.take 17⟩, ⟨99, borrowComm.drop 17⟩]⟩ : ChunkBuf) demoCfg)).res with
    | .ok (.comm r) => r.comm == .owned [97, 98]
    | _ => false) = true := by decide +kernel

end Perf
