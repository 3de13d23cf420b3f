import Verif.Model.Py
/-!
# `bytes.decode()` and `bytes.decode(errors="ignore")`

CPython's UTF-8 decoder (Objects/stringlib/codecs.h `utf8_decode`, Objects/unicodeobject.c
`unicode_decode_utf8`), called by atoparser/utils.py:326 (errors="ignore") and by the strict
`.decode()` calls in atoparser/parsers/atop_1_26.py.  An ill-formed sequence is reported once per
maximal valid prefix; "ignore" skips exactly the reported bytes.
-/

namespace Atop

/-- A continuation byte 0x80..0xBF. -/
def isCont (b : UInt8) : Bool := 0x80 ≤ b.toNat && b.toNat < 0xC0

/-- Second byte allowed after the 3-byte lead `c` (no overlong forms, no surrogates). -/
def cont3 (c : Nat) (b : UInt8) : Bool :=
  isCont b && !(c == 0xE0 && b.toNat < 0xA0) && !(c == 0xED && 0xA0 ≤ b.toNat)

/-- Second byte allowed after the 4-byte lead `c` (no overlong forms, nothing above U+10FFFF). -/
def cont4 (c : Nat) (b : UInt8) : Bool :=
  isCont b && !(c == 0xF0 && b.toNat < 0x90) && !(c == 0xF4 && 0x90 ≤ b.toNat)

/-- The decoder's event sequence: `some cp` for a decoded code point, `none` for a decoding error. -/
def utf8Events : Bytes → List (Option Nat)
  | [] => []
  | b0 :: r0 =>
    let c := b0.toNat
    if c < 0x80 then some c :: utf8Events r0
    else if c < 0xC2 then none :: utf8Events r0                       -- invalid start byte
    else if c < 0xE0 then
      match r0 with
      | [] => [none]                                                   -- unexpected end of data
      | b1 :: r1 =>
        if isCont b1 then some ((c - 0xC0) * 64 + (b1.toNat - 0x80)) :: utf8Events r1
        else none :: utf8Events (b1 :: r1)                             -- invalid continuation byte
    else if c < 0xF0 then
      match r0 with
      | [] => [none]
      | b1 :: r1 =>
        if cont3 c b1 then
          match r1 with
          | [] => [none]
          | b2 :: r2 =>
            if isCont b2 then
              some ((c - 0xE0) * 4096 + (b1.toNat - 0x80) * 64 + (b2.toNat - 0x80)) :: utf8Events r2
            else none :: utf8Events (b2 :: r2)
        else none :: utf8Events (b1 :: r1)
    else if c < 0xF5 then
      match r0 with
      | [] => [none]
      | b1 :: r1 =>
        if cont4 c b1 then
          match r1 with
          | [] => [none]
          | b2 :: r2 =>
            if isCont b2 then
              match r2 with
              | [] => [none]
              | b3 :: r3 =>
                if isCont b3 then
                  some ((c - 0xF0) * 262144 + (b1.toNat - 0x80) * 4096 + (b2.toNat - 0x80) * 64
                    + (b3.toNat - 0x80)) :: utf8Events r3
                else none :: utf8Events (b3 :: r3)
            else none :: utf8Events (b2 :: r2)
        else none :: utf8Events (b1 :: r1)
    else none :: utf8Events r0

/-- `data.decode(errors="ignore")` -/
def decodeIgnore (data : Bytes) : PyStr := (utf8Events data).filterMap id

/-- `data.decode()` -/
def decodeStrict (data : Bytes) : Except Exc PyStr :=
  if (utf8Events data).all Option.isSome then .ok ((utf8Events data).filterMap id)
  else .error .unicodeDecodeError

end Atop
