import Verif.Model.Rpc
import Verif.Model.Url
/-!
# The command line tools — tools/common.c, tools/publish.c, tools/consume.c, tools/get.c, tools/unix/process.c

A tool is a process with a connection; everything it asks of the operating system outside the connection is answered by `Shell` and
recorded, with the library calls it makes, as an act.  `exit(1)` (the functions `die…`, common.c:26-61 and 112-124) ends the run: it is
`Res.err 1`.  The messages printed are not modelled.
-/
namespace Rmq.ToolsM
open UrlM (chs)

/-- Answer of `read(2)`: bytes (none at the end of the file), -1 with EINTR, -1 with another errno. (tools/common.c:384-413.) -/
inductive ReadAns where | data (b : Bytes) | intr | error
deriving Repr, DecidableEq
/-- Answer of `write(2)`: a count, or -1. (tools/common.c:415-425.) -/
inductive WriteAns where | wrote (n : Nat) | error
deriving Repr, DecidableEq
/-- Answer of `waitpid(2)`: how the command ended, or -1. (tools/unix/process.c:45-55.) -/
inductive WaitAns where | exited (code : Nat) | signalled | error
deriving Repr, DecidableEq

/-- The operating system; the argument is the number of acts so far. (No lines of /repo: the world of tools/common.c, tools/consume.c, tools/get.c, tools/publish.c.) -/
structure Shell where
  net : NetEnv
  read : Nat → ReadAns
  write : Nat → Bytes → WriteAns
  /-- does an allocation of this size succeed? -/
  alloc : Nat → Nat → Bool
  /-- descriptors of a new pipe (read end, write end); `none`: failure -/
  pipe : Nat → Option (Nat × Nat)
  /-- do posix_spawn_file_actions_* and posix_spawnp succeed? -/
  spawn : Nat → Bool
  close : Nat → Nat → Bool
  wait : Nat → WaitAns
  fuel : Nat

/-- What a tool does to get connected. (No lines of /repo: the world of tools/common.c, tools/consume.c, tools/get.c, tools/publish.c.) -/
inductive Setup where
  /-- amqp_ssl_socket_new or amqp_tcp_socket_new -/
  | socket (tls : Bool)
  /-- amqp_ssl_socket_set_cacert and its status -/
  | cacert (file : Bytes) (status : Int)
  /-- amqp_ssl_socket_set_key and its status -/
  | key (cert : Option Bytes) (key : Bytes) (status : Int)
  /-- amqp_socket_open -/
  | connect (host : Bytes) (port : Int)
deriving Repr, DecidableEq

/-- What a tool does. (No lines of /repo: the world of tools/common.c, tools/consume.c, tools/get.c, tools/publish.c.) -/
inductive Act where
  | setup (s : Setup)
  /-- `printf` to the standard output (whether it gets there the tools do not check) -/
  | print (b : Bytes)
  /-- `read(0, …, asked)` gave `got` -/
  | read (asked : Nat) (got : Bytes)
  | readFail
  /-- the descriptor took these bytes -/
  | write (fd : Nat) (b : Bytes)
  | writeFail (fd : Nat)
  | alloc (ok : Bool)
  /-- amqp_simple_wait_frame returned a frame -/
  | frame (f : AFrame)
  /-- a pipe was made -/
  | pipe (rd wr : Nat)
  /-- the command was started; `stdin` is what its descriptor 0 refers to (`none`: closed) -/
  | spawn (argv : List Bytes) (stdin : Option Nat)
  | close (fd : Nat)
  /-- the command was waited for -/
  | wait (r : WaitAns)
  /-- amqp_basic_ack was called -/
  | ack (tag : UInt64)
  /-- amqp_basic_get was called, without acknowledgement -/
  | get (queue : Bytes)
  /-- amqp_basic_publish was called -/
  | publish (exchange routingKey : Bytes) (flags : UInt32) (props : Rec) (body : Bytes)
  /-- a call of the generated functions -/
  | call (name : String) (args : List Val)
  /-- its result, where the tool looks at it -/
  | answer (r : Option Rec)

/-- The process. (No lines of /repo: the world of tools/common.c, tools/consume.c, tools/get.c, tools/publish.c.) -/
structure Proc where
  app : App
  acts : List Act

/-- No lines of /repo: the world of tools/common.c, tools/consume.c, tools/get.c, tools/publish.c. -/
def Proc.push (p : Proc) (a : Act) : Proc := { p with acts := p.acts ++ [a] }

/-- No lines of /repo: the world of tools/common.c, tools/consume.c, tools/get.c, tools/publish.c. -/
def act (a : Act) : M Proc Unit := fun p => .ok () (p.push a)

/-- `die…`: common.c:26-33. -/
def die {α : Type} : M Proc α := M.fail 1

/-- die_amqp_error (common.c:49-61) after a library call: a status below zero ends the process.  A status above zero would be taken for
success although the call has no result (`ub`). -/
def orDie {α : Type} (x : M App α) : M Proc α := fun p =>
  match x p.app with
  | .ok a s => .ok a { p with app := s }
  | .err e s => if e < 0 then .err 1 { p with app := s } else .ub
  | .ub => .ub
  | .fuel => .fuel

/-! ## Files and pipes, common.c:384-425 -/

/-- The loop of read_all, common.c:391-411.  `buf` is what has been read, `space` the size of the block, `ok` whether the block exists
(neither malloc nor realloc is checked): reading into NULL is answered with EFAULT unless there is nothing to read. -/
def readLoop (S : Shell) : Nat → Nat → Bool → Bytes → M Proc (Bytes × Bool)
  | 0, _, _, _ => M.outOfFuel
  | n + 1, space, ok, buf => fun p =>
    match S.read p.acts.length with
    | .intr => readLoop S n space ok buf (p.push .readFail)
    | .error => .err 1 (p.push .readFail)
    | .data b =>
      let got := b.take (space - buf.length)
      if got = [] then .ok (buf, ok) (p.push (.read (space - buf.length) []))
      else if ok = false then .err 1 (p.push .readFail)
      else
        let p := p.push (.read (space - buf.length) got)
        let buf := buf ++ got
        if buf.length = space then
          let ok := S.alloc p.acts.length (space * 2)
          readLoop S n (space * 2) ok buf (p.push (.alloc ok))
        else readLoop S n space ok buf p

/-- read_all, common.c:384-413.  Result: the bytes, and whether the pointer is other than NULL.  Simplification: `space` is a natural
number (an allocation of 2^63 bytes is never granted). -/
def readAll (S : Shell) : M Proc (Bytes × Bool) := fun p =>
  let ok := S.alloc p.acts.length 4096
  readLoop S S.fuel 4096 ok [] (p.push (.alloc ok))

/-- write_all, common.c:415-425. -/
def writeLoop (S : Shell) (fd : Nat) : Nat → Bytes → M Proc Unit
  | 0, _ => M.outOfFuel
  | n + 1, data => fun p =>
    if data.length > 0 then
      match S.write p.acts.length data with
      | .error => .err 1 (p.push (.writeFail fd))
      | .wrote k => writeLoop S fd n (data.drop (min k data.length)) (p.push (.write fd (data.take (min k data.length))))
    else .ok () p

/-- tools/common.c:415-425. -/
def writeAll (S : Shell) (fd : Nat) (data : Bytes) : M Proc Unit := writeLoop S fd S.fuel data

/-! ## Message bodies, common.c:427-448 -/

/-- amqp_simple_wait_frame and die_amqp_error. (tools/common.c:427-448.) -/
def waitF (S : Shell) : M Proc AFrame := do
  let f ← orDie (App.lift (waitFrame S.net none))
  act (.frame f.frame)
  pure f.frame

/-- The loop of copy_body, common.c:438-447.  `remaining` is a size_t: the subtraction wraps. -/
def copyLoop (S : Shell) (fd : Nat) : Nat → Nat → M Proc Unit
  | 0, _ => M.outOfFuel
  | n + 1, remaining =>
    if remaining = 0 then pure ()
    else do
      let f ← waitF S
      match f.payload with
      | .body b => do
        writeAll S fd b
        copyLoop S fd n ((remaining + (2 ^ 64 - b.length % 2 ^ 64)) % 2 ^ 64)
      | _ => die

/-- copy_body, common.c:427-448. -/
def copyBody (S : Shell) (fd : Nat) : M Proc Unit := do
  let f ← waitF S
  match f.payload with
  | .header _ size _ _ => copyLoop S fd S.fuel size.toNat
  | _ => die

/-! ## Commands, unix/process.c -/

/-- pipeline, unix/process.c:14-43.  In the child descriptor 0 becomes a copy of the read end, then both ends are closed — which closes
descriptor 0 itself if it is one of them. -/
def pipeline (S : Shell) (argv : List Bytes) : M Proc Nat := fun p =>
  match S.pipe p.acts.length with
  | none => .err 1 p
  | some (rd, wr) =>
    let p := p.push (.pipe rd wr)
    if S.spawn p.acts.length = false then .err 1 p
    else
      let p := p.push (.spawn argv (if rd = 0 ∨ wr = 0 then none else some rd))
      let okc := S.close p.acts.length rd
      let p := p.push (.close rd)
      if okc then .ok wr p else .err 1 p

/-- finish_pipeline, unix/process.c:45-55: did the command exit with status 0? -/
def finishPipeline (S : Shell) (fd : Nat) : M Proc Bool := fun p =>
  let okc := S.close p.acts.length fd
  let p := p.push (.close fd)
  if okc = false then .err 1 p
  else
    let r := S.wait p.acts.length
    let p := p.push (.wait r)
    match r with
    | .error => .err 1 p
    | .exited c => .ok (c = 0) p
    | .signalled => .ok false p

/-! ## Consuming, consume.c -/

/-- A call of a generated function, with `die_rpc(amqp_get_rpc_reply(conn), …)` (common.c:112-124) when it returns NULL; die_rpc returns
if the reply is a normal one. -/
def callOrDie (S : Shell) (name : String) (args : List Val) : M Proc (Option Rec) := do
  act (.call name args)
  let r ← orDie (callRpc S.net name 1 args)
  fun p =>
    match r, p.app.last with
    | some r, _ => .ok (some r) p
    | none, some (.normal _ _) => .ok none p
    | none, _ => .err 1 p

/-- amqp_basic_ack with die_amqp_error, consume.c:148-149. -/
def ackOrDie (S : Shell) (tag : UInt64) : M Proc Unit := do
  act (.ack tag)
  orDie (basicAck S.net 1 tag 0)

/-- `if (finish_pipeline(&pl) && !no_ack) …`, consume.c:148-149. -/
def ackStep (S : Shell) (noAck ok : Bool) (tag : UInt64) : M Proc Unit := if ok && !noAck then ackOrDie S tag else pure ()

/-- amqp_maybe_release_buffers, consume.c:151. -/
def releaseStep : M Proc Unit := fun p => .ok () { p with app := { p.app with conn := maybeRelease p.app.conn } }

/-- limits.h; used through tools/common.c. -/
def INT_MAX : Nat := 2147483647

/-- One pass of the loop of do_consume, consume.c:128-153, without the increment. -/
def consumeOne (S : Shell) (noAck : Bool) (argv : List Bytes) : M Proc Unit := do
  let f ← waitF S
  match f.payload with
  | .method id args =>
    if id ≠ BASIC_DELIVER then pure ()
    else
      match args.get? .delivery_tag with
      | some (.u64 tag) => do
        let fd ← pipeline S argv
        copyBody S fd
        let ok ← finishPipeline S fd
        ackStep S noAck ok tag
        releaseStep
      | _ => M.ub
  | _ => pure ()

/-- The loop of do_consume, consume.c:128-153: `i` is an int. -/
def consumeLoop (S : Shell) (noAck : Bool) (count : Int) (argv : List Bytes) : Nat → Nat → M Proc Unit
  | 0, _ => M.outOfFuel
  | n + 1, i =>
    if count < 0 ∨ (i : Int) < count then do
      consumeOne S noAck argv
      if i = INT_MAX then M.ub else consumeLoop S noAck count argv n (i + 1)
    else pure ()

/-- One conditional call of basic.qos: consume.c:107-113, consume.c:115-121. -/
def qosIf (S : Shell) (c : Bool) (v : Int) : M Proc Unit :=
  if c then do
    let _ ← callOrDie S "amqp_basic_qos" [.u32 0, .u16 (UInt16.ofNat v.toNat), .bool 0]
    pure ()
  else pure ()

/-- The calls of basic.qos, consume.c:106-121; 65535 is AMQP_CONSUME_MAX_PREFETCH_COUNT. -/
def qosStep (S : Shell) (count prefetch : Int) : M Proc Unit := do
  qosIf S (0 < count ∧ count ≤ 65535) count
  qosIf S (0 < prefetch ∧ prefetch ≤ 65535 ∧ ¬ ((0 < count ∧ count ≤ 65535) ∧ count ≤ prefetch)) prefetch

/-- do_consume, consume.c:101-154. -/
def doConsume (S : Shell) (queue : Bytes) (noAck : Bool) (count prefetch : Int) (argv : List Bytes) : M Proc Unit := do
  qosStep S count prefetch
  let _ ← callOrDie S "amqp_basic_consume"
    [.bytes queue, .bytes [], .bool 0, .bool (if noAck then 1 else 0), .bool 0, .table []]
  consumeLoop S noAck count argv S.fuel 0

/-- `strtok_r(…, ",", …)` called until it returns NULL (consume.c:82-95): skip delimiters, then take up to the next one. -/
def tokens : Nat → Bytes → List Bytes
  | 0, _ => []
  | n + 1, s =>
    let s := s.dropWhile (· = 44)
    if s = [] then []
    else s.takeWhile (· ≠ 44) :: tokens n ((s.dropWhile (· ≠ 44)).drop 1)

/-- The binding loop, consume.c:82-95 (its counter is never advanced, so MAX_LISTEN_KEYS has no effect). -/
def bindLoop (S : Shell) (queue exchange : Bytes) : List Bytes → M Proc Unit
  | [] => pure ()
  | k :: ks => do
    let _ ← callOrDie S "amqp_queue_bind" [.bytes queue, .bytes exchange, .bytes k, .table []]
    bindLoop S queue exchange ks

/-- The name of the queue, consume.c:62-69.  amqp_bytes_malloc_dup gives NULL and 0 when there is no memory; the printed copy is not
modelled here (`stringifyBytes` below). -/
def queueName (S : Shell) (queue : Option Bytes) (res : Option Rec) : M Proc Bytes := fun p =>
  match queue with
  | some q => .ok q p
  | none =>
    match res with
    | none => .ub                                                               -- res->queue with res == NULL
    | some r =>
      match r.get? .queue with
      | some (.bytes q) => let ok := S.alloc p.acts.length q.length; .ok (if ok then q else []) (p.push (.alloc ok))
      | _ => .ub

/-- The binding, consume.c:72-96.  strdup(NULL) is undefined. -/
def bindStep (S : Shell) (name : Bytes) (exchange routingKey : Option Bytes) : M Proc Unit := fun p =>
  match exchange, routingKey with
  | none, _ => .ok () p
  | some _, none => .ub                                                         -- consume.c:75
  | some ex, some k =>
    let ok := S.alloc p.acts.length (k.length + 1)
    let p := p.push (.alloc ok)
    if ok then bindLoop S name ex (tokens (k.length + 1) k) p else .err 1 p

/-- setup_queue, consume.c:38-99.  `none` is a NULL option. -/
def setupQueue (S : Shell) (queue exchange routingKey : Option Bytes) (declare exclusive : Bool) : M Proc Bytes :=
  if exchange = none ∧ routingKey ≠ none then die
  else if queue = none ∨ exchange ≠ none ∨ declare ∨ exclusive then do
    let res ← callOrDie S "amqp_queue_declare"
      [.bytes (queue.getD []), .bool 0, .bool 0, .bool (if exclusive then 1 else 0), .bool 1, .table []]
    act (.answer res)
    let name ← queueName S queue res
    bindStep S name exchange routingKey
    pure name
  else pure (queue.getD [])

/-! ## Printing names, consume.c:15-36 -/

/-- The characters stringify_bytes writes for a byte, consume.c:24-31. -/
def escape (b : UInt8) : Bytes :=
  if b ≥ 32 ∧ b ≠ 127 then [b]
  else [92, (48 : UInt8) + (b >>> (6 : UInt8)), (48 : UInt8) + ((b >>> (3 : UInt8)) &&& (7 : UInt8)), (48 : UInt8) + (b &&& (7 : UInt8))]

/-- The loop of stringify_bytes, consume.c:23-32, writing to a block of `size` bytes: `ub` outside the block. -/
def stringifyLoop (size : Nat) : Bytes → Bytes → M Unit Bytes
  | out, [] => if out.length < size then pure (out ++ [0]) else M.ub
  | out, b :: bs => if out.length + (escape b).length ≤ size then stringifyLoop size (out ++ escape b) bs else M.ub

/-- stringify_bytes, consume.c:15-36 (the allocation is not checked there; here it succeeds). -/
def stringifyBytes (bytes : Bytes) : M Unit Bytes := stringifyLoop (bytes.length * 4 + 1) [] bytes

/-! ## Publishing, publish.c -/

/-- `fgets(buf, n, f)`, `rest` being what is left of the file: a line with its newline, or `n - 1` bytes of it; `none` at the end. (C standard; called at tools/common.c:169-211.) -/
def fgets (n : Nat) (rest : Bytes) : Option (Bytes × Bytes) :=
  if rest = [] then none
  else
    let line := (rest.takeWhile (· ≠ 10)) ++ (rest.dropWhile (· ≠ 10)).take 1
    some (line.take (n - 1), rest.drop (line.take (n - 1)).length)

/-- What `strlen` sees of bytes that a NUL follows. (C standard; called at tools/common.c:169-211.) -/
def cstring (b : Bytes) : Bytes := b.takeWhile (· ≠ 0)

/-- MAX_LINE_LENGTH, publish.c:10. -/
def MAX_LINE : Nat := 32768

/-- The options of amqp-publish, publish.c:24-59 (`none`: not given; strings have no NUL). -/
structure PubOpts where
  exchange : Option Bytes := none
  routingKey : Option Bytes := none
  contentType : Option Bytes := none
  contentEncoding : Option Bytes := none
  /-- `none`: no --header -/
  headers : Option (List Bytes) := none
  replyTo : Option Bytes := none
  body : Option Bytes := none
  persistent : Bool := false
  lineBuffered : Bool := false

/-- The entries filled in by publish.c:95-108: one per definition with a colon. -/
def headerEntries : List Bytes → List Entry
  | [] => []
  | h :: hs =>
    if 58 ∈ h then
      .mk (h.takeWhile (· ≠ 58)) (.utf8 (((h.dropWhile (· ≠ 58)).drop 1).dropWhile (· = 32))) :: headerEntries hs
    else headerEntries hs

/-- The table built at publish.c:84-111: as many entries as definitions; those not filled in are as calloc left them (kind 0). -/
def headerTable (hs : List Bytes) : Table :=
  headerEntries hs ++ List.replicate (hs.length - (headerEntries hs).length) (.mk [] (.other 0))

/-- The properties built at publish.c:66-113. -/
def pubProps (o : PubOpts) : UInt32 × Rec :=
  let p : UInt32 × Rec := (0x1000, [(.delivery_mode, .u8 (if o.persistent then 2 else 1))])
  let p := match o.contentType with | some v => (p.1 ||| 0x8000, p.2 ++ [(.content_type, .bytes v)]) | none => p
  let p := match o.contentEncoding with | some v => (p.1 ||| 0x4000, p.2 ++ [(.content_encoding, .bytes v)]) | none => p
  let p := match o.replyTo with | some v => (p.1 ||| 0x200, p.2 ++ [(.reply_to, .bytes v)]) | none => p
  match o.headers with
  | some (h :: hs) => (p.1 ||| 0x2000, p.2 ++ [(.headers, .table (headerTable (h :: hs)))])
  | _ => p

/-- do_publish, publish.c:12-18. -/
def doPublish (S : Shell) (o : PubOpts) (body : Bytes) : M Proc Unit := do
  let ex := o.exchange.getD []
  let rk := o.routingKey.getD []
  act (.publish ex rk (pubProps o).1 (pubProps o).2 body)
  orDie (App.lift (basicPublish S.net 1 ex rk 0 0 (some (pubProps o)) body))

/-- The loop of publish.c:121-124; `rest` is what is left of the standard input. -/
def lineLoop (S : Shell) (o : PubOpts) : Nat → Bytes → M Proc Unit
  | 0, _ => M.outOfFuel
  | n + 1, rest =>
    match fgets MAX_LINE rest with
    | none => pure ()
    | some (line, rest) => do
      doPublish S o (cstring line)
      lineLoop S o n rest

/-- The part of amqp-publish between make_connection and close_connection, publish.c:116-141, and the check of publish.c:62-65.  `stdin` is
what stdio delivers in line mode (a read error is an end of file there); the allocation of the line buffer is not modelled. -/
def publishMain (S : Shell) (o : PubOpts) (stdin : Bytes) : M Proc Unit :=
  if o.exchange = none ∧ o.routingKey = none then die
  else
    match o.body with
    | some b => if o.lineBuffered then pure () else doPublish S o b
    | none =>
      if o.lineBuffered then lineLoop S o (stdin.length + 1) stdin
      else do
        let (b, ok) ← readAll S
        if ok = false ∧ b ≠ [] then M.ub
        else doPublish S o b

/-! ## Getting one message, get.c:8-18 -/

/-- do_get: 1 if there was a message.  Its body goes to the standard output. (tools/get.c:8-18.) -/
def doGet (S : Shell) (queue : Bytes) : M Proc Bool := do
  act (.get queue)
  let r ← orDie (basicGet S.net 1 queue 1)
  match r with
  | .normal id _ => if id = 0x003C0048 then pure false else do
      copyBody S 1
      pure true
  | _ => die

/-! ## Credentials from a file, common.c:169-211 -/

/-- One line of the file: common.c:180-191 and 193-204.  `strncmp(token, prefix, strlen(prefix))` compares up to a NUL, so the line must
begin with the prefix; `name[n - 1]` with `n = 0` is before the block (`ub`). -/
def authLine (pre : Bytes) (rest : Bytes) : Res Unit (Bytes × Bytes) :=
  match fgets 128 rest with
  | none => .err 1 ()
  | some (token, rest) =>
    if (cstring token).take pre.length ≠ pre then .err 1 ()
    else
      let v := (cstring token).drop pre.length
      match v.getLast? with
      | none => .ub
      | some c => if c ≠ 10 then .err 1 () else .ok (v.dropLast, rest) ()

/-- read_authfile, common.c:169-211, `file` being the contents (a read error is an end of file); memory is available. -/
def readAuthfile (file : Bytes) : Res Unit (Bytes × Bytes) :=
  match authLine (chs "username:") file with
  | .ok (u, rest) _ =>
    match authLine (chs "password:") rest with
    | .ok (p, rest) _ => if rest = [] then .ok (u, p) () else .err 1 ()
    | .err e s => .err e s
    | .ub => .ub
    | .fuel => .fuel
  | .err e s => .err e s
  | .ub => .ub
  | .fuel => .fuel

/-! ## Connection options, common.c:213-330 (built with TLS: tools/CMakeLists.txt:20) -/

/-- The connection options, common.c:126-167 (`none`: NULL; the strings have no NUL). -/
structure ConnOpts where
  url : Option Bytes := none
  server : Option Bytes := none
  port : Int := -1
  vhost : Option Bytes := none
  username : Option Bytes := none
  password : Option Bytes := none
  heartbeat : Int := 0
  authfile : Option Bytes := none
  ssl : Bool := false

/-- struct amqp_connection_info, its strings read. (include/rabbitmq-c/amqp.h:2184-2191; tools/common.c:213-330.) -/
structure ConnTo where
  user : Bytes
  password : Bytes
  host : Bytes
  vhost : Bytes
  port : Int
  ssl : Bool
deriving Repr, DecidableEq

/-- die, tools/common.c:26-33: exit(1). -/
def dieO {α : Type} : Res Unit α := .err 1 ()

/-- Conversion of a `long` to an `int`. (tools/common.c:213-372.) -/
def toInt (v : Int) : Int := v.bmod (2 ^ 32)

/-- The string a pointer of the parsed URL points to. (tools/common.c:213-330.) -/
def ptrStr (buf : Bytes) : UrlM.CStr → Option Bytes
  | .lit s => some s
  | .ptr p => UrlM.cstr? (buf.drop p)

/-- common.c:221-225: the defaults, and the URL. -/
def connUrl (env : UrlM.UEnv) (o : ConnOpts) : Res Unit ConnTo :=
  match o.url with
  | none => .ok ⟨chs "guest", chs "guest", chs "localhost", chs "/", 5672, false⟩ ()
  | some u =>
    match UrlM.parseUrl env (u ++ [0]) with
    | .ok _ s =>
      match ptrStr s.buf s.info.user, ptrStr s.buf s.info.password, ptrStr s.buf s.info.host, ptrStr s.buf s.info.vhost with
      | some a, some b, some c, some d => .ok ⟨a, b, c, d, s.info.port, s.info.ssl⟩ ()
      | _, _, _, _ => .ub
    | .err _ _ => dieO
    | .ub => .ub
    | .fuel => .fuel

/-- common.c:227-268: --server. -/
def connServer (o : ConnOpts) (c : ConnTo) : Res Unit ConnTo :=
  match o.server with
  | none => .ok c ()
  | some s =>
    if o.url ≠ none then dieO
    else if 58 ∈ s then
      if o.port ≥ 0 then dieO
      else
        match UrlM.strtol10 ((s.dropWhile (· ≠ 58)).drop 1) with
        | none => dieO                                                          -- port_end == colon + 1
        | some (v, rest) =>
          if toInt v < 0 ∨ toInt v > 65535 ∨ rest ≠ [] then dieO
          else .ok { c with host := s.takeWhile (· ≠ 58), port := toInt v } ()
    else .ok { c with host := s, port := if o.ssl then 5671 else 5672 } ()

/-- common.c:270-279: --ssl. -/
def connSsl (o : ConnOpts) (c : ConnTo) : Res Unit ConnTo :=
  if o.ssl = true ∧ c.ssl = false then (if o.url ≠ none then dieO else .ok { c with ssl := true } ()) else .ok c ()

/-- common.c:281-287: --port. -/
def connPort (o : ConnOpts) (c : ConnTo) : Res Unit ConnTo :=
  if o.port ≥ 0 then (if o.url ≠ none then dieO else .ok { c with port := o.port } ()) else .ok c ()

/-- common.c:289-307: --username and --password. -/
def connUser (o : ConnOpts) (c : ConnTo) : Res Unit ConnTo :=
  match o.username with
  | none => .ok c ()
  | some u => if o.url ≠ none ∨ o.authfile ≠ none then dieO else .ok { c with user := u } ()
/-- tools/common.c:213-330. -/
def connPass (o : ConnOpts) (c : ConnTo) : Res Unit ConnTo :=
  match o.password with
  | none => .ok c ()
  | some u => if o.url ≠ none ∨ o.authfile ≠ none then dieO else .ok { c with password := u } ()

/-- common.c:309-317: --authfile.  `file` is what opening and reading the file named gives (`none`: it cannot be opened). -/
def connAuth (o : ConnOpts) (file : Option Bytes) (c : ConnTo) : Res Unit ConnTo :=
  match o.authfile with
  | none => .ok c ()
  | some _ =>
    if o.url ≠ none then dieO
    else
      match file with
      | none => dieO
      | some f =>
        match readAuthfile f with
        | .ok (u, p) _ => .ok { c with user := u, password := p } ()
        | .err e s => .err e s
        | .ub => .ub
        | .fuel => .fuel

/-- common.c:319-325: --vhost. -/
def connVhost (o : ConnOpts) (c : ConnTo) : Res Unit ConnTo :=
  match o.vhost with
  | none => .ok c ()
  | some v => if o.url ≠ none then dieO else .ok { c with vhost := v } ()

/-- common.c:327-329: --heartbeat. -/
def connHeartbeat (o : ConnOpts) (c : ConnTo) : Res Unit ConnTo := if o.heartbeat < 0 then dieO else .ok c ()

/-- tools/common.c:213-330. -/
def thenR {α β : Type} (r : Res Unit α) (f : α → Res Unit β) : Res Unit β :=
  match r with
  | .ok a _ => f a
  | .err e s => .err e s
  | .ub => .ub
  | .fuel => .fuel

/-- init_connection_info, common.c:213-330.  Simplification: allocations succeed. -/
def connInfo (env : UrlM.UEnv) (o : ConnOpts) (file : Option Bytes) : Res Unit ConnTo :=
  thenR (connUrl env o) fun c => thenR (connServer o c) fun c => thenR (connSsl o c) fun c => thenR (connPort o c) fun c =>
    thenR (connUser o c) fun c => thenR (connPass o c) fun c => thenR (connAuth o file c) fun c => thenR (connVhost o c) fun c =>
      connHeartbeat o c

/-! ## Connecting and closing, common.c:332-382 -/

/-- The TLS options, common.c:136-138 (`none`: NULL); --cacert has a default. -/
structure TlsOpts where
  cacert : Bytes
  cert : Option Bytes := none
  key : Option Bytes := none

/-- What the library and the outside answer while a tool connects.  That opening and the TLS setters behave is C54, C55, C50-C52, C79. (tools/common.c:332-372.) -/
structure Start where
  /-- amqp_new_connection (`none`: NULL), with the socket that is opened below -/
  conn : Option Conn
  /-- does amqp_ssl_socket_new or amqp_tcp_socket_new give a socket? -/
  socket : Bool
  cacert : Bytes → Int
  key : Option Bytes → Bytes → Int
  connect : Bytes → Int → Int
  build : Build
  memcmp : Bytes → Bytes → Int
  mem : Nat → UInt8

/-- common.c:346-351: the statuses are ignored. -/
def tlsKey (st : Start) (t : TlsOpts) : M Proc Unit :=
  match t.key with
  | some k => act (.setup (.key t.cert k (st.key t.cert k)))
  | none => pure ()
/-- tools/common.c:332-372. -/
def tlsStep (st : Start) (t : TlsOpts) (tls : Bool) : M Proc Unit :=
  if tls then do
    act (.setup (.cacert t.cacert (st.cacert t.cacert)))
    tlsKey st t
  else pure ()

/-- common.c:339-362: the new connection and its socket.  With no connection the library writes through NULL (amqp_set_socket). -/
def newStep (st : Start) (tls : Bool) : M Proc Unit := fun p =>
  if st.socket = false then .err 1 p
  else
    match st.conn with
    | none => .ub
    | some s => .ok () ({ p with app := ⟨s, none⟩ }.push (.setup (.socket tls)))

/-- common.c:363-366. -/
def connectStep (st : Start) (c : ConnTo) : M Proc Unit := do
  act (.setup (.connect c.host c.port))
  if st.connect c.host c.port < 0 then die else pure ()

/-- The arguments of amqp_login, common.c:367-368; it passes on an empty table of client properties, amqp_socket.c:1436-1452. -/
def toolLogin (o : ConnOpts) (c : ConnTo) : LoginArgs := ⟨c.vhost, 0, 131072, o.heartbeat, some ⟨none, []⟩, .plain c.user c.password⟩

/-- amqp_login and die_rpc, common.c:367-369. -/
def loginStep (S : Shell) (st : Start) (o : ConnOpts) (c : ConnTo) : M Proc Unit := do
  let r ← orDie (App.lift (login S.net st.build st.memcmp st.mem (toolLogin o c)))
  match r with
  | .normal _ => pure ()
  | _ => die

/-- make_connection, common.c:332-372, after init_connection_info. -/
def makeConnection (S : Shell) (st : Start) (o : ConnOpts) (t : TlsOpts) (c : ConnTo) : M Proc Unit := do
  newStep st c.ssl
  tlsStep st t c.ssl
  connectStep st c
  loginStep S st o c
  let _ ← callOrDie S "amqp_channel_open" []
  pure ()

/-- die_rpc after a call that returns its reply. (tools/common.c:112-124.) -/
def replyOrDie (x : M App Reply) : M Proc Unit := do
  let r ← orDie x
  match r with
  | .normal _ _ => pure ()
  | _ => die

/-- close_connection, common.c:376-382; AMQP_REPLY_SUCCESS is 200.  amqp_destroy_connection always returns OK (amqp_connection.c:157-178). -/
def closeConnection (S : Shell) : M Proc Unit := do
  replyOrDie (channelClose S.net 1 200)
  replyOrDie (connectionClose S.net 200)

/-- init_connection_info within make_connection, common.c:338. -/
def infoStep (env : UrlM.UEnv) (o : ConnOpts) (file : Option Bytes) : M Proc ConnTo := fun p =>
  match connInfo env o file with
  | .ok c _ => .ok c p
  | .err e _ => .err e p
  | .ub => .ub
  | .fuel => .fuel

/-- A tool, between the parsing of its options and its exit with 0: make_connection, `body`, close_connection. (tools/common.c:332-382.) -/
def connected {α : Type} (S : Shell) (st : Start) (env : UrlM.UEnv) (o : ConnOpts) (t : TlsOpts) (file : Option Bytes) (body : M Proc α) : M Proc α := do
  let c ← infoStep env o file
  makeConnection S st o t c
  let a ← body
  closeConnection S
  pure a

/-! ## The tools' main functions, after the parsing of the options; the result is the exit status -/

/-- declare_queue.c:31-41; `printf("%.*s\n", …)` stops at a NUL. -/
def declareBody (S : Shell) (queue : Bytes) (durable : Bool) : M Proc Nat := do
  let r ← callOrDie S "amqp_queue_declare" [.bytes queue, .bool 0, .bool (if durable then 1 else 0), .bool 0, .bool 0, .table []]
  match r with
  | none => M.ub                                                                -- reply->queue with reply == NULL
  | some r =>
    match r.get? .queue with
    | some (.bytes name) => do
      act (.print (cstring name ++ [10]))
      pure 0
    | _ => M.ub
/-- main, declare_queue.c:26-43. -/
def declareMain (S : Shell) (st : Start) (env : UrlM.UEnv) (o : ConnOpts) (t : TlsOpts) (file queue : Option Bytes) (durable : Bool) : M Proc Nat :=
  match queue with
  | none => die
  | some q => connected S st env o t file (declareBody S q durable)

/-- delete_queue.c:34-43. -/
def deleteBody (S : Shell) (queue : Bytes) (ifUnused ifEmpty : Bool) : M Proc Nat := do
  let r ← callOrDie S "amqp_queue_delete" [.bytes queue, .bool (if ifUnused then 1 else 0), .bool (if ifEmpty then 1 else 0)]
  match r with
  | none => M.ub
  | some r =>
    match r.get? .message_count with
    | some (.u32 n) => do
      act (.print (decimal n.toNat ++ [10]))
      pure 0
    | _ => M.ub
/-- main, delete_queue.c:29-45. -/
def deleteMain (S : Shell) (st : Start) (env : UrlM.UEnv) (o : ConnOpts) (t : TlsOpts) (file queue : Option Bytes) (ifUnused ifEmpty : Bool) : M Proc Nat :=
  match queue with
  | none => die
  | some q => if q = [] then die else connected S st env o t file (deleteBody S q ifUnused ifEmpty)

/-- main, get.c:33-42. -/
def getBody (S : Shell) (queue : Bytes) : M Proc Nat := do
  let got ← doGet S queue
  pure (if got then 0 else 2)
/-- main, tools/get.c:20-42. -/
def getMain (S : Shell) (st : Start) (env : UrlM.UEnv) (o : ConnOpts) (t : TlsOpts) (file queue : Option Bytes) : M Proc Nat :=
  match queue with
  | none => die
  | some q => connected S st env o t file (getBody S q)

/-- main, publish.c:60-143. -/
def publishBodyM (S : Shell) (po : PubOpts) (stdin : Bytes) : M Proc Nat := do
  publishMain S po stdin
  pure 0
/-- main, tools/publish.c:20-144. -/
def publishTool (S : Shell) (st : Start) (env : UrlM.UEnv) (o : ConnOpts) (t : TlsOpts) (file : Option Bytes) (po : PubOpts) (stdin : Bytes) : M Proc Nat :=
  if po.exchange = none ∧ po.routingKey = none then die
  else connected S st env o t file (publishBodyM S po stdin)

/-- main, consume.c:197-214. -/
def consumeBody (S : Shell) (queue exchange routingKey : Option Bytes) (declare exclusive noAck : Bool) (count prefetch : Int) (argv : List Bytes) : M Proc Nat := do
  let name ← setupQueue S queue exchange routingKey declare exclusive
  doConsume S name noAck count prefetch argv
  pure 0
/-- main, tools/consume.c:160-214. -/
def consumeTool (S : Shell) (st : Start) (env : UrlM.UEnv) (o : ConnOpts) (t : TlsOpts) (file queue exchange routingKey : Option Bytes)
    (declare exclusive noAck : Bool) (count prefetch : Int) (argv : List Bytes) : M Proc Nat :=
  if argv = [] then die
  else connected S st env o t file (consumeBody S queue exchange routingKey declare exclusive noAck count prefetch argv)

end Rmq.ToolsM
