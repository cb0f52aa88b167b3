import Verif.Model.Client.Options
/-! # The sizes of the buffers of a connection (`conn.go:101-122`) -/
namespace Stomp.Client
open Stomp

/-- Sizes of the buffers of the reader and of the writer of a connection, in bytes. -/
structure Buffers where
  reader : Nat
  writer : Nat
  deriving DecidableEq, Repr

/-- `bufio.NewReaderSize` as used by `frame.NewReaderSize` (`frame/reader.go:37-41`): at least 16 bytes. -/
def readerSize (n : Int) : Nat := max 16 n.toNat

/-- `bufio.NewWriterSize` as used by `frame.NewWriterSize` (`frame/writer.go:26-28`): 4096 for a size that is not positive. -/
def writerSize (n : Int) : Nat := if n ≤ 0 then 4096 else n.toNat

/-- The reader and the writer that `ConnectWithContext` makes (`conn.go:101-102`, `conn.go:116-122`; the standard sizes are those of `frame/reader.go:11`, `frame/reader.go:33-35`
and `frame/writer.go:22-24`). -/
def buffers (o : Options) : Buffers :=
  { reader := if o.readBufferSize > 0 then readerSize o.readBufferSize else readerSize 4096,
    writer := if o.writeBufferSize > 0 then writerSize o.readBufferSize else writerSize 4096 }

end Stomp.Client
