import Verif.Model.FirstFrame
import Verif.Model.FrameReader
/-!
# tool/qrpcurl/main.go

One run of the tool: the positional arguments, the value of `-f`, and the environment (whether dialling succeeds, the connection's
writeFrameBytes, what GetFrame returns). Printing is the `UrlOut`. Parsing of options is urfave/cli's; `-w` only selects the dialler.
-/
namespace Qrpc

/-- `strings.Split` with a separator of one byte. -/
def splitByte (c : UInt8) : Bytes → List Bytes
  | [] => [[]]
  | x :: r => if x = c then [] :: splitByte c r else
    match splitByte c r with
    | [] => [[x]]
    | p :: ps => (x :: p) :: ps

/-- The digits of `strconv.Atoi`, from the value `n` read so far. -/
def atoiDigits (n : Nat) : Bytes → Option Nat
  | [] => some n
  | c :: r => if 0x30 ≤ c ∧ c ≤ 0x39 then atoiDigits (10 * n + (c.toNat - 48)) r else none

/-- `strconv.Atoi`, `int` having 64 bits. -/
def atoi : Bytes → Option Int
  | [] => none
  | c :: r =>
    if c = 0x2d then if r = [] then none else match atoiDigits 0 r with
      | some n => if n ≤ 2 ^ 63 then some (-n) else none
      | none => none
    else
      let ds := if c = 0x2b then r else c :: r
      if ds = [] then none else match atoiDigits 0 ds with
        | some n => if n < 2 ^ 63 then some n else none
        | none => none

inductive UrlOut where
  | help | noCmd | cmdNotInt | cmdRange | noPort | connectFail | flagRange | requestFail | responseFail
  | response (f : Frame)
  | panic                 -- 95: resp is nil

structure UrlRes where
  dialled : Option Bytes := none
  submitted : Option DFW := none
  out : UrlOut

/-- main.go:25-108 -/
def qrpcurl {ε} (args : List Bytes) (flag : Int) (dial : Bytes → Bool) (write : DFW → Option ε) (pooled : DFW) (id : UInt64) (r : Nat)
    (getFrame : Option Frame) : UrlRes :=
  match args with
  | [url, payload] =>
    match splitByte 0x2f url with
    | [hostAndPort, cmdStr] =>
      match atoi cmdStr with
      | none => { out := .cmdNotInt }
      | some cmdInt =>
        if cmdInt < 0 ∨ cmdInt > 0xffffff then { out := .cmdRange }
        else if (splitByte 0x3a hostAndPort).length ≠ 2 then { out := .noPort }
        else if dial hostAndPort = false then { dialled := some hostAndPort, out := .connectFail }
        else if flag < 0 ∨ flag > 0xff then { dialled := some hostAndPort, out := .flagRange }
        else
          let flg : FrameFlag := UInt8.ofNat flag.toNat
          let res := clientRequest none write pooled id r (UInt32.ofNat cmdInt.toNat) flg payload
          match res.err with
          | some _ => { dialled := some hostAndPort, submitted := res.submitted, out := .requestFail }
          | none =>
            -- clientconn.go:361-363: for a push frame the Response is nil
            if FrameFlag.isPush (FrameFlag.toNonStream flg) then { dialled := some hostAndPort, submitted := res.submitted, out := .panic }
            else match getFrame with
              | some f => { dialled := some hostAndPort, submitted := res.submitted, out := .response f }
              | none => { dialled := some hostAndPort, submitted := res.submitted, out := .responseFail }
    | [_] => { out := .noCmd }
    | _ => { out := .help }
  | _ => { out := .help }

end Qrpc
