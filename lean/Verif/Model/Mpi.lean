import Verif.Model.Outcome

/-!
# Collective communication and receiving (`core_mpi.hpp`)

A collective operation is one function of what all ranks pass to it.  Memory is bytes; the collective
functions of MPI are modelled by their contract on bytes, breaking which is undefined behaviour.
-/

namespace Verif.Mpi

/-- A byte of memory. -/
abbrev Byte := UInt8

/-- A trivially copyable type: its size, and how values are laid out in memory. -/
structure Codec (α : Type) where
  sz : Nat
  enc : α → List Byte
  dec : List Byte → α
  pos : 0 < sz
  len : ∀ a, (enc a).length = sz
  dec_enc : ∀ a, dec (enc a) = a

/-- The memory of a `std::vector` of such values. -/
def Codec.bytes (c : Codec α) (v : List α) : List Byte := v.flatMap c.enc

/-- The vector of `n` elements that has this memory. -/
def Codec.read (c : Codec α) (n : Nat) (b : List Byte) : List α :=
  (List.range n).map fun k => c.dec ((b.drop (k * c.sz)).take c.sz)

/-- The expression `&v[0]`.  For a vector without elements this is undefined by the standard (it is what
checking implementations of the library abort on); with `lax` it is some pointer, that nobody uses. -/
def addr (lax : Bool) (v : List α) : Outcome Unit := if v.isEmpty && !lax then .ub else .ok ()

/-- `std::size_t` converted to `int`. -/
def toInt (n : Nat) : Int := Int.bmod n (2 ^ 32)

/-- Sum of `int`s. -/
def iadd (a b : Int) : Outcome Int := if -(2 ^ 31) ≤ a + b ∧ a + b < 2 ^ 31 then .ok (a + b) else .ub

/-- `std::partial_sum` on `int`s (started with `acc`, which is zero). -/
def partialSum (acc : Int) : List Int → Outcome (List Int)
  | [] => .ok []
  | x :: xs => (iadd acc x).bind fun y => (partialSum y xs).map (y :: ·)

/-- In turn. -/
def mapO (f : α → Outcome β) : List α → Outcome (List β)
  | [] => .ok []
  | a :: l => (f a).bind fun b => (mapO f l).map (b :: ·)

/-- Bytes `off .. off + n` of the memory. -/
def slice (b : List Byte) (off n : Nat) : Outcome (List Byte) :=
  if off + n ≤ b.length then .ok ((b.drop off).take n) else .ub

/-- Memory in which the bytes from `off` on have been overwritten. -/
def overwrite (b : List Byte) (off : Nat) (w : List Byte) : Outcome (List Byte) :=
  if off + w.length ≤ b.length then .ok (b.take off ++ w ++ b.drop (off + w.length)) else .ub

/-- MPI_Scatter: rank `i` receives the `i`-th portion. -/
def mpiScatter (N : Nat) (send : List Byte) (count : Nat) : Outcome (List (List Byte)) :=
  mapO (fun i => slice send (i * count) count) (List.range N)

/-- core_mpi.hpp:672-688 `Communicator::scatter` of scalars; `vals r` is what rank `r` passes.  If the root
throws, the others never return. -/
def scatter (c : Codec α) (lax : Bool) (N root : Nat) (vals : Nat → List α) : Outcome (List α) :=
  if (vals root).length ≠ N then .throws .invalidArgument
  else
    (mapO (fun r => addr lax (vals r)) (List.range N)).bind fun _ =>
    (mpiScatter N (c.bytes (vals root)) c.sz).map fun parts => parts.map c.dec

/-- MPI_Scatterv: rank `i` receives `counts[i]` bytes from `displs[i]` on; what it expects must be as much. -/
def mpiScatterv (send : List Byte) (counts displs recvcounts : List Int) : Outcome (List (List Byte)) :=
  mapO (fun p : (Int × Int) × Int =>
    if p.1.1 < 0 ∨ p.1.2 < 0 ∨ p.2 ≠ p.1.1 then .ub else slice send p.1.2.toNat p.1.1.toNat)
    ((counts.zip displs).zip recvcounts)

/-- The number of elements `recvcount / sizeof(T)`, computed in `std::size_t`. -/
def elems (c : Codec α) (recvcount : Int) : Nat := (recvcount % 2 ^ 64).toNat / c.sz

/-- A message received into a vector of `elems` elements. -/
def intoVector (c : Codec α) (lax : Bool) (recvcount : Int) (msg : List Byte) : Outcome (List α) :=
  (addr lax (List.range (elems c recvcount))).bind fun _ =>
  if elems c recvcount * c.sz ≠ msg.length then .ub else .ok (c.read (elems c recvcount) msg)

/-- core_mpi.hpp:696-739 `Communicator::scatter` of containers; `vals r` is what rank `r` passes, the
result is what the ranks get.  `ci` is the layout of `int`. -/
def scatterv (ci : Codec Int) (c : Codec α) (lax : Bool) (N root : Nat) (vals : Nat → List (List α)) :
    Outcome (List (List α)) :=
  if (vals root).length ≠ N then .throws .invalidArgument
  else
    let sendcounts := (vals root).map fun v => toInt (v.length * c.sz)
    let sendbuf := (vals root).flatten
    (partialSum 0 sendcounts.dropLast).bind fun ps =>
    (scatter ci lax N root fun r => if r = root then sendcounts else []).bind fun recvcounts =>
    (addr lax sendbuf).bind fun _ =>
    (mpiScatterv (c.bytes sendbuf) sendcounts (0 :: ps) recvcounts).bind fun parts =>
    mapO (fun p => intoVector c lax p.1 p.2) (recvcounts.zip parts)

/-- core_mpi.hpp:772-780 `Communicator::all_gather` of scalars, `vals r` is what rank `r` passes; every
rank gets the result. -/
def allGather (c : Codec α) (N : Nat) (vals : Nat → α) : Outcome (List α) :=
  -- MPI_Allgather
  .ok (c.read N (((List.range N).map vals).flatMap c.enc))

/-- MPI_Allgatherv: what rank `j` sends is put at `displs[j]`. -/
def mpiAllgatherv (sends : List (List Byte)) (counts displs : List Int) (mem : List Byte) :
    Outcome (List Byte) :=
  ((sends.zip counts).zip displs).foldl (fun m p => m.bind fun mem =>
    if p.1.2 < 0 ∨ p.2 < 0 ∨ p.1.2 ≠ p.1.1.length then .ub else overwrite mem p.2.toNat p.1.1) (.ok mem)

/-- The loop core_mpi.hpp:808-816: an iterator runs through the vector. -/
def distribute : List Nat → List α → Outcome (List (List α))
  | [], _ => .ok []
  | k :: ks, l => if k ≤ l.length then (distribute ks (l.drop k)).map (l.take k :: ·) else .ub

/-- core_mpi.hpp:790-818 `Communicator::all_gather` of containers. -/
def allGatherv (ci : Codec Int) (c : Codec α) (lax : Bool) (N : Nat) (vals : Nat → List α) :
    Outcome (List (List α)) :=
  (allGather ci N fun r => toInt ((vals r).length * c.sz)).bind fun recvcounts =>
  (partialSum 0 recvcounts).bind fun ps =>
  let displs := 0 :: ps
  let n := elems c (displs.getLast (by simp [displs]))
  (mapO (fun r => addr lax (vals r)) (List.range N)).bind fun _ =>
  (addr lax (List.range n)).bind fun _ =>
  (mpiAllgatherv ((List.range N).map fun r => c.bytes (vals r)) recvcounts displs
    (List.replicate (n * c.sz) 0)).bind fun mem =>
  distribute (recvcounts.map (elems c)) (c.read n mem)

/-- core_mpi.hpp:747-764 `Communicator::all_to_all`; `vals r` is what rank `r` passes, the result is what
the ranks get.  A rank that throws leaves the others waiting. -/
def allToAll (c : Codec α) (lax : Bool) (N : Nat) (vals : Nat → List α) : Outcome (List (List α)) :=
  if ((List.range N).all fun r => (vals r).length == N) = false then .throws .invalidArgument
  else
    (mapO (fun r => addr lax (vals r)) (List.range N)).bind fun _ =>
    -- MPI_Alltoall
    let count := N / N * c.sz
    mapO (fun i => (mapO (fun j => slice (c.bytes (vals j)) (i * count) count) (List.range N)).map
      fun parts => c.read N parts.flatten) (List.range N)

/-! ## Receiving -/

/-- A message, with its source and tag. -/
structure Msg where
  source : Nat
  tag : Nat
  body : List Byte
deriving DecidableEq

/-- Source and tag asked for; `none` for `any_source`, `any_tag`. -/
def matchesMsg (source tag : Option Nat) (m : Msg) : Bool :=
  (source == none || source == some m.source) && (tag == none || tag == some m.tag)

/-- The messages that a receive or a probe may pick, by position: the first that matches, or of another
source the first of that source that matches (messages of one source do not overtake each other). -/
def eligible (source tag : Option Nat) (box : List Msg) (k : Nat) : Prop :=
  ∃ m, box[k]? = some m ∧ matchesMsg source tag m = true ∧
    ∀ j m', j < k → box[j]? = some m' → m'.source = m.source → matchesMsg source tag m' = false

/-- core_mpi.hpp:533-540 `Communicator::recv`: MPI_Probe picks a message, then, when `arrived` have come in
too, MPI_Recv picks one, into a buffer of the length of the first.  A longer message is an error (truncation),
of a shorter one the rest of the buffer stays zero.  The result is a relation as it is up to MPI what to pick;
it says what is returned, and which message has been received. -/
inductive Recv (source tag : Option Nat) (box arrived : List Msg) : Outcome (List Byte) → Nat → Prop
  | fits (i k : Nat) (m m' : Msg) (hi : eligible source tag box i) (hm : box[i]? = some m)
      (hk : eligible source tag (box ++ arrived) k) (hm' : (box ++ arrived)[k]? = some m')
      (hlen : m'.body.length ≤ m.body.length) :
      Recv source tag box arrived
        (.ok (m'.body ++ List.replicate (m.body.length - m'.body.length) 0)) k
  | truncated (i k : Nat) (m m' : Msg) (hi : eligible source tag box i) (hm : box[i]? = some m)
      (hk : eligible source tag (box ++ arrived) k) (hm' : (box ++ arrived)[k]? = some m')
      (hlen : m.body.length < m'.body.length) :
      Recv source tag box arrived (.throws .other) k

/-! ## Values in messages -/

/-- core_mpi.hpp:610-617 `Communicator::send` of a value (also 625-632, `isend`): its memory is the message. -/
def sendValue (c : Codec α) (source tag : Nat) (v : α) : Msg := ⟨source, tag, c.enc v⟩

/-- core_mpi.hpp:640-653 `Communicator::recv` of a value, after `r` has been received (line 643). -/
def asValue (c : Codec α) (r : Outcome (List Byte)) : Outcome α :=
  r.bind fun buf => if buf.length ≠ c.sz then .throws .logicError else .ok (c.dec buf)

/-- A program that receives values, again and again, as in core_mpi.hpp:640-653, always from this source and
with this tag, while messages arrive; it goes on if there was an exception.  `box` are the messages at the
beginning, then those that arrive, what the calls return, and the messages at the end. -/
inductive Receives (c : Codec α) (source tag : Option Nat) :
    List Msg → List Msg → List (Outcome α) → List Msg → Prop
  | done (box : List Msg) : Receives c source tag box [] [] box
  | arrive {box ms box' : List Msg} {rs : List (Outcome α)} (m : Msg)
      (h : Receives c source tag (box ++ [m]) ms rs box') : Receives c source tag box (m :: ms) rs box'
  | recv {box ms box' : List Msg} {rs : List (Outcome α)} (arrived : List Msg) (r : Outcome (List Byte)) (k : Nat)
      (hr : Recv source tag box arrived r k)
      (h : Receives c source tag ((box ++ arrived).eraseIdx k) ms rs box') :
      Receives c source tag box (arrived ++ ms) (asValue c r :: rs) box'

/-! ## Receiving without blocking -/

/-- core_mpi.hpp:550-569 `Communicator::irecv`, then 232-237 `Request::get`: the text it returns, and which
message has been received.  Without a matching message the request is null, which MPI_Wait does not wait for,
and its buffer empty (551-556).  Otherwise as `Recv`, except that MPI may put the message in place only when
`irecv` has returned: then the memory it was told of is gone, if the buffer is one of up to `sso` characters
(see `Requests`), and something is put into it. -/
inductive Irecv (sso : Nat) (source tag : Option Nat) (box arrived : List Msg) :
    Outcome (List Byte) → Option Nat → Prop
  | nothing (h : ∀ m ∈ box, matchesMsg source tag m = false) : Irecv sso source tag box arrived (.ok []) none
  | received (r : Outcome (List Byte)) (k : Nat) (h : Recv source tag box arrived r k) :
      Irecv sso source tag box arrived r (some k)
  | late (i k : Nat) (m m' : Msg) (hi : eligible source tag box i) (hm : box[i]? = some m)
      (hk : eligible source tag (box ++ arrived) k) (hm' : (box ++ arrived)[k]? = some m')
      (hlen : m.body.length ≤ sso) (hpos : 0 < m'.body.length) (hfit : m'.body.length ≤ m.body.length) :
      Irecv sso source tag box arrived .ub (some k)

end Verif.Mpi
