import Verif.Model.Basic
/-!
# `src/endian.rs`
-/
namespace Perf

/-- `trait Endian`, src/endian.rs:14-32: any implementation, also a user's. -/
structure Endian where
  conv16 : List Byte → U16
  conv32 : List Byte → U32
  conv64 : List Byte → U64
  isNative : Bool

namespace Endian

/-- `Native`, src/endian.rs:38-60. `host` is the byte order of the machine (`from_ne_bytes`). -/
def native (host : Order) : Endian where
  conv16 := fromOrder host 16
  conv32 := fromOrder host 32
  conv64 := fromOrder host 64
  isNative := true

/-- `Little`, src/endian.rs:64-88; `is_native` compares the two readings of the bytes `ab`. -/
def little (host : Order) : Endian where
  conv16 := fromLE 16
  conv32 := fromLE 32
  conv64 := fromLE 64
  isNative := fromLE 16 [0x61, 0x62] == fromOrder host 16 [0x61, 0x62]

/-- `Big`, src/endian.rs:92-116. -/
def big (host : Order) : Endian where
  conv16 := fromBE 16
  conv32 := fromBE 32
  conv64 := fromBE 64
  isNative := fromBE 16 [0x61, 0x62] == fromOrder host 16 [0x61, 0x62]

/-- `Dynamic`, src/endian.rs:120-156. -/
def dynamic (o : Order) (host : Order) : Endian :=
  match o with
  | .big => {
      conv16 := (big host).conv16
      conv32 := (big host).conv32
      conv64 := (big host).conv64
      isNative := (big host).isNative }
  | .little => {
      conv16 := (little host).conv16
      conv32 := (little host).conv32
      conv64 := (little host).conv64
      isNative := (little host).isNative }

end Endian
end Perf
