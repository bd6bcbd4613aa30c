import Verif.Spec.Login
import Verif.Spec.Tables
/-!
# Specification: how the client introduces itself
-/
namespace Rmq

/-- What the library says of itself in connection.start-ok: who it is, and which extensions of the protocol it understands. -/
def identity (version platform : Bytes) : Table :=
  [.mk "product".toUTF8.toList (.utf8 "rabbitmq-c".toUTF8.toList),
   .mk "version".toUTF8.toList (.utf8 version),
   .mk "platform".toUTF8.toList (.utf8 platform),
   .mk "copyright".toUTF8.toList (.utf8 "Copyright (c) 2007-2014 VMWare Inc, Tony Garnock-Jones, and Alan Antonuk.".toUTF8.toList),
   .mk "information".toUTF8.toList (.utf8 "See https://github.com/alanxz/rabbitmq-c".toUTF8.toList),
   .mk "capabilities".toUTF8.toList (.table
     [.mk "authentication_failure_close".toUTF8.toList (.boolean 1), .mk "exchange_exchange_bindings".toUTF8.toList (.boolean 1)])]

end Rmq
