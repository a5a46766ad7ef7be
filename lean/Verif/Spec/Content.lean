import Verif.Spec.Kernel
/-!
# What of a record the crate does not report

`blank` puts a fixed value in place of everything the kernel writes that has no place in the crate's types. All of it is listed here.
-/
namespace Perf

/-- The word beside `cpu`, and IDENTIFIER when ID is there too. -/
def KTrailer.blank (st : U64) (t : KTrailer) : KTrailer :=
  { t with res := 0, identifier := if st.getLsbD 6 then 0 else t.identifier }

/-- The words beside `cpu`, IDENTIFIER when ID is there too, what follows the raw data, and what was reserved for the stack but not
filled. -/
def KSample.blank (st : U64) (s : KSample) : KSample :=
  let stack := if s.stack = [] then [] else s.stack.take s.dynSize.toNat
  { s with
    res := 0
    identifier := if st.getLsbD 6 then 0 else s.identifier
    rawPad := List.replicate s.rawPad.length 0
    stack := stack
    dynSize := BitVec.ofNat 64 stack.length }

/-- How many NULs follow. -/
def KName.blank (n : KName) : KName := { n with pad := 1 }

/-- The reserved fields. -/
def KDetail.blank : KDetail → KDetail
  | .buildId size _ _ id => .buildId size 0 0 id
  | d => d

def KBody.blank (st : U64) : KBody → KBody
  | .mmap pid tid addr len pgoff name => .mmap pid tid addr len pgoff name.blank
  | .comm pid tid name => .comm pid tid name.blank
  | .sample s => .sample (s.blank st)
  | .mmap2 pid tid addr len pgoff detail prot flags name => .mmap2 pid tid addr len pgoff detail.blank prot flags name.blank
  | .ksymbol addr len ksymType flags name => .ksymbol addr len ksymType flags name.blank
  | .cgroup id name => .cgroup id name.blank
  | .textPoke addr old new pad => .textPoke addr old new (List.replicate pad.length 0)
  | b => b

def KRecord.blank (cfg : ParseConfig) (r : KRecord) : KRecord :=
  { r with body := r.body.blank cfg.sampleType, trailer := r.trailer.blank cfg.sampleType }

/-- Records in which nothing is left out. -/
def KBody.complete (st : U64) : KBody → Bool
  | .mmap .. | .comm .. | .mmap2 .. | .ksymbol .. | .cgroup .. | .textPoke .. => false
  | .sample _ => !st.getLsbD 7 && !(st.getLsbD 6 && st.getLsbD 16) && !st.getLsbD 10 && !st.getLsbD 13
  | _ => true

/-- Settings under which nothing of the trailer is left out. -/
def trailerComplete (st : U64) : Bool := !st.getLsbD 7 && !(st.getLsbD 6 && st.getLsbD 16)

end Perf
