import json
B="v3/buffer.generated.go"; M="v3/minibuf.generated.go"
P=[]
def p(id,title,statement,quantifier,why,anchors):
    P.append(dict(id=id,title=title,statement=statement,quantifier=quantifier,why_tests_cant=why,anchors=anchors))
TW=B+": WriteU16LE..WriteF64BE (16 methods)"; TR=B+": ReadU16LE..ReadF64BE (16 methods)"
p("C01","Typed write/read round trip","Writing a non-empty slice of any of the sixteen element type/endianness combinations at an in-range byte offset and then reading the same number of elements with the matching reader at the same offset returns exactly the slice written.","every buffer content, every in-range offset, every slice length and every element value, for U/I/F x 16/32/64 x LE/BE","2^64 values per element, unbounded slice lengths and buffer sizes; tests check a handful of literals",[TW,TR])
p("C02","Byte layout of typed writes","After a typed write at offset off, byte off + w*i + k is byte k (counted from the least significant for LE, from the most significant for BE) of the two's complement / IEEE bit pattern of element i, w being the element width in bytes.","every buffer, offset, data slice, element value, element index and byte index","interoperability with other little/big-endian producers depends on every byte of every value; a table of literals cannot cover it",[TW])
p("C03","Value of typed reads","A typed read of n>=1 elements at an in-range offset returns n elements, element i being the number whose base-256 digits are bytes off+w*i..off+w*i+w-1 in the named endianness, reinterpreted as signed or floating-point bits for I/F.","every buffer content, in-range offset and count","decoding must be right for data produced by others, not only for bytes the library wrote itself",[TR])
p("C04","Writes touch only the addressed range","A successful WriteBytes, WriteByte or typed write changes only the bytes [off, off+size) of the buffer; every other byte, the capacities, both offsets and all memory outside the buffer's backing window stay the same.","every buffer, offset, data and every byte position outside the range","absence of collateral damage is a universally quantified negative",[TW,B+": WriteBytes, WriteByte"])
p("C05","Reads are pure","Read operations at an explicit offset (bytes, typed, bit, bits), capacity/offset getters, AfterByte/AfterBit and Bytes leave every byte of memory, both capacities and both offsets unchanged, whether they succeed or panic.","every state and every argument, including out-of-range ones","needs comparison of the whole state before and after for all inputs",[TR,B+": ReadBytes, ReadByte, ReadBit, ReadBits, Bytes, ByteCapacity, BitCapacity, ByteOffset, BitOffset, AfterByte, AfterBit"])
p("C06","Next byte operations are the positioned operation plus an advance","Each byte-level ...Next operation has the result and memory effect of the positioned operation at the current byte offset, then moves the byte offset forward by exactly the number of bytes transferred; if it panics the byte offset has not moved. The bit offset never moves.","every state, count and data slice, for all 36 byte-level Next methods","cursor drift shows only after particular histories; must hold for every width and count",[B+": *Next byte methods, SeekByte"])
p("C07","Exact bounds check of byte-level writes","A byte-level write of size bytes (non-empty for typed writes) succeeds if and only if 0 <= off and off+size <= capacity; otherwise, provided off+size does not exceed the int64 range, it panics with BufferOverwriteError when off+size > capacity and with BufferUnderwriteError when it fits but off < 0.","every buffer, every int64 offset, every data slice","off-by-one boundary conditions at every size and offset",[TW,B+": WriteBytes, WriteByte","v3/errors.go"])
p("C08","Exact bounds check of byte-level reads","A byte-level read of n elements of width w (n>=1 for typed reads, n>=0 for ReadBytes) succeeds iff 0 <= off and off+n*w <= capacity; otherwise, when off+n*w does not overflow int64, it panics with BufferOverreadError if off+n*w > capacity and BufferUnderreadError if it fits but off < 0.","every buffer and every int64 off and n","boundary conditions at every size and offset",[TR,B+": ReadBytes, ReadByte","v3/errors.go"])
p("C09","Failed byte-level writes change nothing","When WriteBytes, WriteByte or any typed write on a Buffer panics, for whatever reason, no byte of memory and no field of the buffer has changed.","every state, every int64 offset, every data slice including those whose bound computation overflows","crash-point property over all inputs",[TW,B+": WriteBytes, WriteByte"])
p("C10","Checked reads never disclose bytes outside the buffer","For every int64 off and n, ReadBytes, ReadByte and typed reads on a Buffer either panic or return data made only of bytes at positions inside [0, capacity), even when the bound computation wraps around int64.","all pairs of int64 arguments (2^128) and all buffers","integer overflow corner cases cannot be sampled",[TR,B+": ReadBytes, ReadByte"])
p("C11","Zero-length transfers are harmless","Writing an empty slice, or reading zero elements, at an offset inside the buffer succeeds, changes nothing and returns an empty result.","every buffer, every offset, every element type","every offset x type x state; unit tests never pass an empty slice",[TW,TR,B+": WriteBytes, ReadBytes"])
p("C12","Out-of-range accesses are reported with the library's own errors","Every byte-level access that is not inside the buffer panics with one of the library's Buffer*Error values rather than with a Go runtime error.","all int64 offsets and counts","requires reasoning about int64 wrap-around",[TW,TR,B+": WriteBytes, ReadBytes","v3/errors.go"])
p("C13","Raw byte round trip","WriteBytes(off,d) followed by ReadBytes(off,len(d)) returns the bytes of d; WriteByte/ReadByte likewise; ReadByte(off) is byte off of the buffer.","every buffer, offset and data","unbounded sizes and values",[B+": WriteBytes, ReadBytes, WriteByte, ReadByte"])
p("C14","Overlapping source is copied as if through a temporary","WriteBytes whose source slice overlaps the buffer's own memory (for example a slice obtained from Bytes or ReadBytes) stores the bytes the source had before the call.","every overlap geometry of source and destination","all relative positions and lengths of overlap",[B+": WriteBytes"])
p("C15","Bit numbering is most-significant-first","ReadBit(off) is 1 exactly when bit 7-(off mod 8) of byte off div 8 is set, for every off in [0, BitCapacity).","every buffer and bit offset","every position in every buffer",[B+": ReadBit"])
p("C16","Single-bit updates change exactly one bit","SetBit, ClearBit and FlipBit at an in-range bit offset make that bit 1, 0, or its negation and leave every other bit, the capacities and both offsets unchanged.","every buffer, bit offset and every other bit position","frame condition over all bits",[B+": SetBit, ClearBit, FlipBit"])
p("C17","Multi-bit read value","ReadBits(off,n) for n>=1 in range returns the number whose binary digits, most significant first, are bits off..off+n-1, modulo 2^64 (so exact for n<=64 and the last 64 bits for larger n).","every buffer, offset and n","all bit strings of all lengths at all alignments",[B+": ReadBits"])
p("C18","Multi-bit write effect and round trip","SetBits(off,data,n) for n>=1 in range makes bits off..off+n-1 the low n binary digits of data, most significant first (zero-extended when n>64), changes no other bit, and ReadBits(off,n) then returns data modulo 2^n.","every buffer, offset, data and n","all values at all alignments",[B+": SetBits, ReadBits"])
p("C19","Exact bounds check of bit operations","ReadBit/SetBit/ClearBit/FlipBit succeed iff 0 <= off < BitCapacity; otherwise they panic with the over error when off >= BitCapacity and the under error when off < 0, and change nothing. ReadBits/SetBits with n>=1 succeed iff 0<=off and off+n<=BitCapacity.","every buffer and every int64 offset and count","all int64 values including the extremes",[B+": ReadBit, ReadBits, SetBit, ClearBit, FlipBit, SetBits","v3/errors.go"])
p("C20","A failed multi-bit write changes nothing","When SetBits panics because the range does not fit, the buffer is unchanged.","every buffer, offset, data, n","crash point inside the bit loop depends on all four inputs",[B+": SetBits"])
p("C21","Non-positive bit counts are harmless","ReadBits(off,n) and SetBits(off,data,n) with n<=0 read nothing and change nothing.","every buffer, offset, data and n<=0","every state and argument",[B+": ReadBits, SetBits"])
p("C22","Next bit operations are the positioned operation plus an advance","ReadBitNext, ReadBitsNext, SetBitNext, ClearBitNext, SetBitsNext, FlipBitNext act at the current bit offset and then advance it by 1 or n; if they panic the bit offset has not moved; the byte offset never moves.","every state and argument","cursor property over all histories",[B+": ReadBitNext, ReadBitsNext, SetBitNext, ClearBitNext, SetBitsNext, FlipBitNext, SeekBit"])
p("C23","Bit view and byte view agree","Reading 8*w bits at bit offset 8*k gives the same number as reading one w-byte unsigned big-endian integer at byte offset k; and SetBits of 8*w bits at 8*k has the same effect as the big-endian write.","every buffer, byte offset, width and value","two independent code paths must agree everywhere",[B+": ReadBits, SetBits, ReadU16BE, ReadU32BE, ReadU64BE, ReadByte, WriteU16BE, WriteU32BE, WriteU64BE"])
p("C24","Whole-buffer bit operations","On a non-empty buffer ClearAllBits makes every byte 0x00, SetAllBits makes every byte 0xFF, FlipAllBits complements every bit, the length, capacities and offsets stay the same, and FlipAllBits twice (like FlipBit twice) restores the content.","every non-empty buffer","every size and content",[B+": ClearAllBits, SetAllBits, FlipAllBits, FlipBit"])
p("C25","Whole-buffer bit operations never panic","ClearAllBits, SetAllBits and FlipAllBits return normally on every buffer, including an empty one.","every buffer","every state",[B+": ClearAllBits, SetAllBits, FlipAllBits"])
p("C26","Cached capacities are always right","After any sequence of operations on a new buffer, whether individual operations succeeded or panicked, ByteCapacity equals the length of Bytes and BitCapacity is eight times that.","every finite sequence of operations with arbitrary arguments","unbounded histories",[B+": Refresh, Grow, TruncateLeft, TruncateRight, Reset, NewBuffer, all methods"])
p("C27","Seek and After arithmetic","SeekByte/SeekBit set the offset to off or to the old offset plus off and change nothing else; AfterByte/AfterBit return capacity - position - 1 for the current or the given position.","every state and every int64 argument (wrapping)","all int64 values",[B+": SeekByte, SeekBit, AfterByte, AfterBit"])
p("C28","Alignment","AlignBit makes the bit offset eight times the byte offset; AlignByte makes the byte offset the bit offset divided by eight rounded toward zero; AlignBit then AlignByte restores the byte offset (when it is within +-2^60); AlignByte then AlignBit rounds a non-negative bit offset down to a multiple of eight.","every pair of offsets","all int64 values incl. negatives",[B+": AlignBit, AlignByte"])
p("C29","Truncation effect and errors","TruncateLeft(n)/TruncateRight(n) with 0<=n<=capacity remove exactly the first/last n bytes, keep the remaining bytes and both offsets; n<0 panics with BufferInvalidByteCountError; n>capacity panics with a runtime error; a panic changes nothing.","every buffer and every int64 n","all sizes and boundary values",[B+": TruncateLeft, TruncateRight"])
p("C30","Truncation algebra","Truncating left by m then n equals truncating left by m+n, likewise on the right, and left and right truncations commute.","every buffer and all m,n that fit","algebraic law over all sizes",[B+": TruncateLeft, TruncateRight"])
p("C31","Grow keeps content and adds exactly n bytes","Grow(n), n>=0, if it returns, increases the capacity by exactly n, keeps all existing bytes and both offsets; n<0 panics with BufferInvalidByteCountError; a panic changes nothing.","every buffer, spare capacity and every int64 n","all combinations of length, spare capacity and n",[B+": Grow"])
p("C32","Grown bytes are zero","The n bytes added by Grow(n) are zero bytes (the shipped example says it expands the buffer 'to have 12 null bytes').","every history before the Grow","depends on the whole history of truncations and resets",[B+": Grow, Reset, TruncateRight","examples/helloworld/main.go"])
p("C33","Grow undoes TruncateRight","Grow(n) directly after TruncateRight(n) restores exactly the original content.","every buffer and n","all sizes",[B+": Grow, TruncateRight"])
p("C34","Constructor concatenates","NewBuffer(s1,...,sk) yields a buffer whose bytes are the concatenation of the slices in order, with capacity the total length and both offsets zero, whatever capacity the runtime's append chooses.","every number of slices, all contents, every append growth policy","unbounded argument lists and an unspecified allocator policy",[B+": NewBuffer"])
p("C35","Constructor sharing","A buffer made from exactly one slice shares memory with it (a write through either is seen by the other); a buffer made from zero or several slices shares memory with none of them.","every heap, slices, and later write","aliasing over all heaps and later operations",[B+": NewBuffer"])
p("C36","Views stay live until reallocation","A slice obtained from Bytes or ReadBytes shows the result of every later in-place operation on the buffer; after a Grow that exceeds the spare capacity the old view keeps its contents and later buffer writes no longer affect it.","every buffer, view and later operation sequence","aliasing across arbitrary later histories",[B+": Bytes, ReadBytes, Grow"])
p("C37","Reset","Reset makes the buffer empty with zero capacities and offsets, never panics, and touches no memory.","every state","every state",[B+": Reset"])
p("C38","Every operation history behaves like a plain byte list with two cursors","For any sequence of operations, the results (values or panics) and the final content, capacities and offsets are those of a simple reference machine holding the byte list, the hidden spare bytes, a byte cursor and a bit cursor.","every finite operation sequence with arbitrary arguments from every reachable state","unbounded histories",[B+": all methods"])
p("C39","Message stream round trip","Writing any sequence of typed slices of mixed types and endiannesses with the Next writers, seeking back to the start and reading the same types and counts with the Next readers returns the same slices, and the offset ends at the same place.","every list of (type, endianness, non-empty slice) that fits","unbounded heterogeneous sequences",[TW,TR,B+": SeekByte"])
p("C40","Bit-field stream round trip","Writing any sequence of bit fields with SetBitsNext, seeking back and reading the same widths with ReadBitsNext returns each value modulo 2^width.","every list of (value,width>=1) that fits","unbounded sequences at all alignments",[B+": SetBitsNext, ReadBitsNext, SeekBit"])
p("C41","Independent writes commute, later writes win","Two in-range writes to disjoint byte ranges can be exchanged without changing the result; of two writes to the same range the later one determines the content.","every pair of writes of any type","all pairs of ranges and values",[TW,B+": WriteBytes"])
p("C42","Type and endianness duality","Reading signed or floating-point elements gives the reinterpretation of the unsigned read at the same place; the big-endian encoding of an element is the reverse of its little-endian encoding, so reading one endianness what was written in the other yields the byte-swapped value.","every value and type","all 2^16..2^64 values",[TW,TR])
p("C43","MiniBuffer agrees with Buffer wherever Buffer succeeds","Whenever a Buffer operation succeeds, the corresponding MiniBuffer operation from the same state succeeds with the same result (stored through out) and the same effect on memory, offsets and capacities.","every operation, state and argument","two code bases compared over all inputs",[B,M])
p("C44","MiniBuffer.ReadBits stores the bits read","MiniBuffer.ReadBits(&out,off,n) leaves in out the number formed by the n bits.","every buffer, offset, n and previous value of out","depends on the previous content of out",[M+": ReadBits, ReadBitsNext"])
p("C45","MiniBuffer accesses stay within the buffer","A MiniBuffer read or write outside [0, capacity) never succeeds silently.","every state and argument","all out-of-range arguments and spare capacities",[M+": ReadBytes, WriteBytes, ReadBit, SetBit, ClearBit, FlipBit"])
p("C46","A failed MiniBuffer typed write changes nothing","When a MiniBuffer typed write panics, no byte of the buffer has changed.","every state, offset and data","crash point inside the element loop",[M+": WriteU16LE..WriteF64BE"])
p("C47","MiniBuffer resize with negative counts","MiniBuffer.Grow(-n) removes the last n bytes and TruncateRight(-n) extends into the spare capacity; TruncateLeft(-n) panics; in all cases the cached capacities stay consistent and a panic changes nothing.","every state and every int64 n","all int64 values",[M+": Grow, TruncateLeft, TruncateRight"])
p("C48","Isolation of buffers","No operation on a buffer changes any memory outside the window [start, start+cap) of its own backing array; hence buffers with disjoint backing memory never influence each other.","every operation sequence and every other slice in memory","frame over all memory and histories",[B+": all methods",M+": all methods"])
p("C49","Refresh is unnecessary","In every state reachable through the public API Refresh changes nothing.","every reachable state","all histories",[B+": Refresh"])
p("C50","v2 agrees with v3","Whenever the v3 Buffer operation succeeds, the v2 Buffer operation of the same meaning gives the same result and content (for typed U16/U32/U64 reads and writes, bits, seeks and aligns).","every state and argument","two code bases compared over all inputs",["v2/buffer.go","v3/buffer.generated.go"])
p("C51","v2 Grow appends zero bytes","v2 Grow(n), n>=0, keeps the content and appends exactly n zero bytes, whatever the spare capacity holds.","every state, spare capacity content, append growth policy and n","all histories",["v2/buffer.go: grow","v2/minibuf.go: grow"])
p("C52","v2 Buffer mutual exclusion","In every interleaving of any number of goroutines calling v2 Buffer methods, at most one goroutine is inside a locked section, and buffer memory is modified only inside it.","every schedule and every set of operations","exponentially many schedules",["v2/buffer.go"])
p("C53","v2 concurrent positioned operations are atomic","In every interleaving of goroutines performing positioned v2 writes, reads and bit operations, the memory reached is that of executing the completed locked sections one after another in the order in which the lock was acquired.","every schedule, any number of goroutines","exponentially many schedules",["v2/buffer.go: write, writeU*, setbit, flipbit"])
p("C54","v2 concurrent Next operations each use their own region","Concurrent WriteBytesNext calls on a v2 Buffer (documented as concurrent-safe) each write to a distinct consecutive region, as some sequential order would.","every schedule","a lost update shows up only under specific schedules",["v2/buffer.go: WriteBytesNext, write, seek"])
p("C55","v2 operations release the lock","After any v2 Buffer method call that returns or panics, the mutex is free so that other calls can proceed.","every operation, state and argument","a stuck mutex needs a particular panic inside the locked region",["v2/buffer.go: write, writeU*, grow"])
p("C56","v1 Complex write/read round trip","v1 WriteComplex followed by ReadComplex of the same count, size and byte order at the same offset returns the written integers.","every in-range offset, data, size and order","all values and sizes",["v1/buffer.go: writeComplex, readComplex"])
p("C57","v1 ReadComplex stays inside the buffer","v1 Buffer.ReadComplex returns only data from inside the buffer's capacity, otherwise panics with BufferOverreadError.","every state, offset, count and size","depends on spare capacity of the backing array",["v1/buffer.go: read, readComplex"])
p("C58","v1 argument validation","v1 WriteComplex/ReadComplex with an integer size other than 1,2,4,8 panic with BufferInvalidIntegerSizeError and v1/v2 SetBit with a bit value other than 0 or 1 panics with BufferInvalidBitError, changing nothing.","every size/bit value and state","all values",["v1/buffer.go: writeComplex, readComplex, setbit","v2/buffer.go: setbit"])
p("C59","Generated accessors are what the generator emits","For every valid directive the generator emits exactly the guards, index/shift pattern and advance of the accessor committed in the generated files.","every directive (receiver, direction, kind, width, endianness)","the committed files could have been edited or be stale",["generation/complex.go: GenerateComplex","v3/_buffer.go","v3/_minibuf.go"])
p("C60","Generator argument validation","A directive is expanded iff receiver is Buffer/MiniBuffer, direction Read/Write, kind I/U/F, width 16/32/64 and order BE/LE; otherwise it is replaced by a comment naming the first offending position; text that is not a directive is preserved.","every string of arguments, every file","all strings",["generation/complex.go: GenerateComplex"])
p("C61","Generator output names","Distinct selected source files give distinct output names, and an output name is never the name of a selected source unless a source name starts with two underscores.","all file names","all strings",["generation/main.go: main"])
p("C62","Regeneration replaces the output file","After running the generator the output file contains exactly the generated contents, whatever it contained before.","every previous and new content","depends on relative lengths of old and new content",["generation/main.go: main"])
p("C63","Errors are distinguishable","The exported error values of each package are pairwise distinct and so are their Error() strings, which have the form 'crunch: <scope>: <message>'.","every pair of errors; the format for every scope and message","finite but never tested pairwise",["v1/errors.go","v2/errors.go","v3/errors.go"])
p("C64","Every MiniBuffer history follows a reference machine","For any sequence of MiniBuffer calls with arbitrary arguments and arbitrary previous contents of the result variables, the results (values or run-time errors) and the final content, capacities and offsets are those of a small reference machine over a byte list, spare bytes and two cursors.","every finite call sequence, arbitrary arguments and result variables","unchecked accesses with negative, overlapping or oversized arguments have effects no test looks at",[M+": all methods"])
p("C65","MiniBuffer cached capacities are always right","After any sequence of MiniBuffer calls on a new buffer, successful or not, ByteCapacity equals the length of Bytes, BitCapacity is eight times that, and Refresh changes nothing.","every finite sequence of calls with arbitrary arguments","requires an invariant over all histories",[M+": Refresh, Grow, TruncateLeft, TruncateRight, Reset, NewMiniBuffer, all methods"])
p("C66","v2 WriteBytes copies the source as it was","v2 WriteBytes(off,data) that returns leaves at off the bytes data had before the call, also when data is a view into the buffer that overlaps the destination.","every buffer, offset and source slice, overlapping or not","depends on the relative position of two views of one array",["v2/buffer.go: write, WriteBytes"])
p("C67","v2 calls with one locked section are linearizable","In every interleaving of goroutines making v2 Buffer calls whose work is done in one locked section (positioned typed and raw writes and reads, single-bit operations, ClearAll/SetAll/FlipAll, Seek, SeekBit, aligns), results, panics and the final state are those of the calls executed one at a time in an order that respects real time.","every schedule, any number of goroutines and calls","exponentially many schedules",["v2/buffer.go: write, read, setbit, readbit, flipbit, seek, seekbit, alignbit, alignbyte"])
p("C68","The generator's result does not depend on map order","For every directory, the files after a run of the generator are the same whatever the order in which Go visits the maps of sources and outputs, and a flag other than complex writes nothing.","every directory with distinct names, every visiting order","map iteration order is random per run",["generation/main.go: main","generation/complex.go: GenerateComplex"])
p("C69","v1 Buffer agrees with v2","Every v1 Buffer method that v2 also has performs the same steps (reads, writes, locking, panics) as the v2 method, for bit counts above zero and, for the methods over the whole buffer, on a buffer that is not empty; the constructors are the same.","every method, state and argument","two code bases compared over all inputs and interleavings",["v1/buffer.go","v2/buffer.go"])
p("C70","v1 treats non-positive bit counts as none","In v1, ReadBits and SetBits with n <= 0 return (0) without touching anything, the Next variants only move the bit offset by n, and ClearAllBits, SetAllBits and FlipAllBits on an empty buffer do nothing.","every offset, value, state and non-positive n","all non-positive values",["v1/buffer.go: readbits, setbits, clearallbits, setallbits, flipallbits"])
p("C71","v1 Complex calls agree with the typed calls of v2","v1 WriteComplex of 16-, 32- or 64-bit integers has the outcome of the v2 typed write (bytes, panic, mutex), and v1 ReadComplex inside the buffer returns what the v2 typed read returns.","every state, offset, list of integers, width and order","two code bases compared over all inputs",["v1/buffer.go: writeComplex, readComplex","v2/buffer.go: writeU*, readU*"])
p("C72","v1 Buffer under concurrency","In every interleaving of v1 Buffer calls at most one goroutine is inside a locked section and only it changes memory and fields; whenever the mutex is free the state is that of the sections one after another; calls with one locked section are linearizable.","every schedule, any number of goroutines and calls","exponentially many schedules",["v1/buffer.go"])
p("C73","v1 operations release the lock","After any v1 Buffer method call that returns or panics, the mutex is free.","every operation, state and argument","a stuck mutex needs a particular panic inside the locked region",["v1/buffer.go: write, writeComplex, grow"])
p("C74","v1 ReadComplexNext and WriteComplexNext move by the bytes transferred","ReadComplexNext and WriteComplexNext are the positioned calls at the byte offset followed, on success only, by a move of the offset by count times integer size.","every state, data, count, size and order","all inputs",["v1/buffer.go: ReadComplexNext, WriteComplexNext"])
p("C75","v1 ReadComplex is atomic","Concurrent positioned v1 WriteComplex and ReadComplex calls return what they return one after another in some order, so a read never sees half of a write.","every schedule","a torn read shows up only under specific schedules",["v1/buffer.go: readComplex, read"])
p("C76","v2 MiniBuffer agrees with v3","Every v2 MiniBuffer method except WriteBytes, WriteBytesNext, Grow and Reset, and the constructor, does exactly what the v3 MiniBuffer method of the same name does; WriteBytes at an offset inside the buffer stores the same bytes (for sources that do not start before the destination in the same array) but panics when not all fit; WriteBytesNext likewise, and it advances as in v3 when all fit; Reset and Grow give the same length, offsets and capacities, v2 with fresh or zeroed memory.","every method, state, argument and previous content of the result variable","two code bases compared over all inputs",["v2/minibuf.go","v3/minibuf.generated.go"])
p("C77","v1 MiniBuffer agrees with v2","Every v1 MiniBuffer method that v2 also has does exactly what the v2 method does, for bit counts above zero and, for the methods over the whole buffer, on a buffer that is not empty; otherwise v1 does nothing.","every method, state, argument and previous content of the result variable","two code bases compared over all inputs",["v1/minibuf.go","v2/minibuf.go"])
p("C78","Every v2 Buffer history follows a reference machine","For any sequence of v2 Buffer calls by one goroutine, with arbitrary arguments and panics recovered, the results and the final content, capacities, offsets and state of the mutex are those of a small reference machine over a byte list, spare bytes and two cursors; from the constructor on the cached capacities are always right and nothing outside the backing window changes.","every finite call sequence with arbitrary arguments, overlapping sources included","requires an invariant over all histories",["v2/buffer.go: all methods"])
p("C79","Every v2 MiniBuffer history follows a reference machine","For any sequence of v2 MiniBuffer calls, with arbitrary arguments and previous contents of the result variables, the results and the final state are those of a small reference machine; from the constructor on the cached capacities are always right and nothing outside the backing window changes.","every finite call sequence, arbitrary arguments and result variables","requires an invariant over all histories",["v2/minibuf.go: all methods"])
p("C80","v1 MiniBuffer Complex calls agree with the typed calls of v2","v1 MiniBuffer.WriteComplex of 16-, 32- or 64-bit integers does exactly what the v2 typed write does, also when not all of them fit; ReadComplex of a positive number of integers inside the buffer stores what the v2 typed read stores; the Next variants are the positioned calls followed, on success only, by a move of the offset by count times size.","every state, offset, list of integers, width and order, every previous content of the result variable","two code bases compared over all inputs",["v1/minibuf.go: writeComplex, readComplex, ReadComplexNext, WriteComplexNext","v2/minibuf.go: writeU*, readU*"])
p("C81","The text of v3 Buffer computes what the model computes","The committed text of v3/buffer.generated.go, parsed and run by an interpreter for the part of Go it uses, gives for every method and the constructor the same result, panic and state as the functions the other properties are about.","every public method, argument and state, any number of loop rounds","it relates the properties proved of a transcription to the text itself",["v3/buffer.generated.go"])
p("C82","The text of v3 MiniBuffer computes what the model computes","The committed text of v3/minibuf.generated.go, parsed and run by the same interpreter, gives for every method and the constructor the same contents of the result variable, panic and state as the functions the other properties are about.","every public method, argument, state and previous content of the result variable","it relates the properties proved of a transcription to the text itself",["v3/minibuf.generated.go"])
p("C83","Every v3 Buffer history run from the text follows a reference machine","For any sequence of Buffer calls with arbitrary arguments, run from the text of v3/buffer.generated.go, the results, panics and final content, capacities and offsets are those of the small reference machine of C38.","every finite sequence of calls","requires reasoning about all histories",["v3/buffer.generated.go"])
p("C84","The text of v2 MiniBuffer computes what the model computes","The committed texts of v2/minibuf.go and v2/utils.go, parsed and run by the same interpreter, give for every method and the constructor, and for every history of calls, the same contents of the result variable, panic and state as the functions the other properties are about.","every public method, argument, state, previous content of the result variable and finite history","it relates the properties proved of a transcription to the text itself",["v2/minibuf.go","v2/utils.go"])
p("C85","The text of v1 MiniBuffer computes what the model computes","The committed texts of v1/minibuf.go and v1/utils.go, parsed and run by the same interpreter, give for every method and the constructor the same contents of the result variable, panic and state as the functions the other properties are about.","every public method, argument, state and previous content of the result variable","it relates the properties proved of a transcription to the text itself",["v1/minibuf.go","v1/utils.go"])
p("C86","The text of v2 Buffer computes what the model computes","The committed texts of v2/buffer.go and v2/utils.go, parsed and run by the same interpreter as sequences of atomic steps, give for every method and the constructor exactly the steps, results and panics of the model; so goroutines that run the text do what goroutines of the model do, exclude each other as in C52 and are linearizable as in C67.","every public method and argument, every state, every schedule, any number of goroutines","it relates the properties proved of a transcription to the text itself, under all schedules",["v2/buffer.go","v2/utils.go"])
p("C87","The text of v1 Buffer computes what the model computes","The committed texts of v1/buffer.go and v1/utils.go, parsed and run by the same interpreter as sequences of atomic steps, give for every method, the Complex ones included, and the constructor exactly the steps, results and panics of the model; so goroutines that run the text exclude each other and are linearizable as in C72, and a ReadComplex that decodes after releasing the mutex can return half of a concurrent write as in C75.","every public method and argument, every state, every schedule, any number of goroutines","it relates the properties proved of a transcription to the text itself, under all schedules",["v1/buffer.go","v1/utils.go"])
p("C88","The example programs, for any data","On a new empty buffer grown to the size of any sequence of typed messages, writing the messages with the Next writers succeeds, Bytes is then exactly their encoding, and after SeekByte(0,false) the Next readers return every message; the same with WriteBytesNext of any bytes. This holds of the functions and of the text of v3/buffer.generated.go.","every sequence of messages of any types, orders and values (and every byte string) that fits in memory, every initial memory","the examples run one literal each",["examples/floating-point/main.go: main","examples/signed-integers/main.go: main","examples/helloworld/main.go: main"])
p("C89","Errors and constants come from their texts","The texts of v1/errors.go, v2/errors.go and v3/errors.go, parsed, declare exactly the error values by name that the model and the interpreter of the buffer files use, and the text of their method Error formats every error value as the model does; v1/crunch.go declares exactly the integer sizes that name resolution knows.","every name, every error value with any scope and message","it relates tables of the model to the text itself",["v1/errors.go","v2/errors.go","v3/errors.go","v1/crunch.go"])
p("C90","Calls on a shared Buffer finish","Goroutines calling v2 (or v1) Buffer methods neither deadlock nor livelock: unless a call has ended by a panic inside its locked section, somebody in a call can always step; calls in progress cannot step forever; so they can be finished. Calls other than writes and Grow never end inside their sections, and after one that does nothing ever changes again.","every schedule, any number of goroutines and calls","a deadlock needs a particular schedule and panic",["v2/buffer.go","v1/buffer.go"])
p("C91","No data races on a shared Buffer","Goroutines calling v2 (or v1) Buffer methods never get into a state where one is about to write a field, the slice header or a byte and another is about to access the same place.","every schedule, any number of goroutines and calls","the race detector sees the schedules it happens to run",["v2/buffer.go","v1/buffer.go"])
p("C92","Capacities of a shared Buffer","Whenever the mutex is free the byte capacity is at most the length of the content, the bit capacity is eight times the byte capacity and the slice fits its array; unless somebody is in Grow the buffer is then well-formed (the capacities are those of the content), and so it is whenever nobody is in a call. In the middle of Grow the capacity can be smaller than the content.","every schedule, any number of goroutines and calls","the window in Grow is a few instructions wide",["v2/buffer.go: grow, refresh, reset","v1/buffer.go: grow, refresh"])
p("C93","Failures of calls on a shared Buffer","Calls check their range before they take the mutex. Whatever calls run at once, one whose range is inside the content the buffer started with returns normally; one whose arguments do not take the arithmetic of the checks by surprise returns or fails with an error of the library, never with a run-time panic; the first call that leaves the mutex locked is a write or Grow whose arguments do; if all writes are of that kind and nobody grows the buffer, the calls in progress can always be finished. False for v2 because of Reset, which makes the content shorter between a check and a write; proved for all other calls, and for all calls of v1.","every schedule, any number of goroutines and calls, any arguments","the window between a check and the section is a few instructions wide",["v2/buffer.go: write*, read*, readbit*, setbit*, flipbit, reset, grow","v1/buffer.go: WriteComplex, ReadComplex, write, read, readbit*, setbit*, flipbit, grow"])
p("C94","Every v1 Buffer history follows a reference machine","For any sequence of v1 Buffer calls by one goroutine, with arbitrary arguments (also integer sizes that are none, values of the wrong dynamic type and no byte order) and panics recovered, the results and the final content, capacities, offsets and state of the mutex are those of a small reference machine over a byte list, spare bytes and two cursors; what ReadComplex returns has the dynamic type of the size asked for; from the constructor on the cached capacities are always right and nothing outside the backing window changes.","every finite call sequence with arbitrary arguments","requires an invariant over all histories; the arguments are interface values",["v1/buffer.go: all methods"])
p("C95","Every v1 MiniBuffer history follows a reference machine","For any sequence of v1 MiniBuffer calls, with arbitrary arguments and previous contents of the result variables, the results and the final state are those of a small reference machine; what ReadComplex stores has the dynamic type of the size asked for; from the constructor on the cached capacities are always right and nothing outside the backing window changes.","every finite call sequence, arbitrary arguments and result variables","requires an invariant over all histories; the arguments are interface values",["v1/minibuf.go: all methods"])
p("C96","Every history run from the text follows a reference machine","For any sequence of calls on a v3 MiniBuffer, a v2 Buffer or MiniBuffer or a v1 Buffer or MiniBuffer, with arbitrary arguments, panics recovered and each call run by the interpreter from the committed text, the results, panics, final content, cursors and (for the Buffers) the state of the mutex are those of the reference machines of C64, C78, C79, C94 and C95, and the cached capacities are right at the end.","every finite sequence of calls, arbitrary arguments and result variables","requires reasoning about all histories of the text itself",["v3/minibuf.generated.go","v2/buffer.go","v2/minibuf.go","v2/utils.go","v1/buffer.go","v1/minibuf.go","v1/utils.go"])
p("C97","Goroutines that run the text of the shared Buffers","What C90 to C93 say of progress, data races, capacities and failures holds of goroutines whose calls are run by the interpreter from the committed texts of v2/buffer.go and v1/buffer.go: no deadlock or livelock unless a call ends inside its section, never two writers, capacities that are those of the content whenever nobody is in Grow and the mutex is free, calls in range that return; and the races and the failure after Reset found there are in the text.","every schedule, any number of goroutines and calls, any arguments","it relates the properties proved of a transcription to the text itself, under all schedules",["v2/buffer.go","v1/buffer.go","v2/utils.go","v1/utils.go"])
p("C98","On a fair schedule every call on a shared Buffer finishes","When the scheduler is fair - a goroutine that could go on with its call again and again does take steps again and again, which for the mutex means that it is not always given to others - every call that is started on a shared v2 or v1 Buffer finishes, as long as no call ends by a panic inside its locked section; in particular when there are no writes and no Grow, and when writes have decent arguments (as in C93) and nobody calls Grow or, in v2, Reset. The same holds of calls run from the text. Without fairness a call can wait for ever while other calls keep finishing.","every infinite fair schedule, any number of goroutines and calls, any arguments","a liveness property of infinite schedules: a test run is finite and its schedule is the runtime's",["v2/buffer.go","v1/buffer.go"])
p("C99","The text of the generator does what its model does","The text of generation/complex.go, parsed and run by an interpreter of the part of Go it uses, with any map of files, always ends, returns that map and no error, and has replaced every file by what the model of the generator makes of it: line by line, directives by their accessors or by a comment that names the first wrong argument. The order in which Go visits the map decides only the order of the console messages, which are determined as well. On the texts of v3/_buffer.go and v3/_minibuf.go it gives exactly the tokens of the two committed generated files.","every map of files with any contents, every map order, every state the function is called in","it relates a transcription of the generator to its text, for inputs of any size",["generation/complex.go: GenerateComplex"])
p("C100","The generator ends and changes nothing but outputs","The text of the generator (generation/main.go and generation/complex.go, parsed and run by an interpreter), started in any directory of any file system, ends without a panic whatever the operating system refuses. Every file that differs afterwards is named like a listed source without its underscore and with .generated.go for .go; no file disappears and none gets shorter.","every file system, directory listing, contents and map order, every failure of every call of the operating system at every time","it quantifies over all failures of the operating system and all contents",["generation/main.go: main, init","generation/complex.go: GenerateComplex"])
p("C101","The text of main does what its model does","When nothing fails, a run of the text of the generator leaves at each output exactly what the source becomes line by line, followed by what the file held beyond that length, and the run is a run of the model of main that C62 and C68 are about.","every file system, directory, listing with distinct names, contents and map order","it relates a transcription of main to its text, for inputs of any size",["generation/main.go: main"])
p("C102","What the generator leaves when files fail","When the operating system refuses to open, read, create or write files at any time, each output is either unchanged, because its source or it could not be opened, or has at its start the output, or the part of it that could be written, of the source, or of the part of it that could be read. Each such failure is reported by a line that begins with '! '.","every file system, listing and map order, every failure of every call at every time","needs fault injection at every call and every number of bytes",["generation/main.go: main"])
p("C103","The generator works in the directory it was given","Only files of the directory on the command line change.","every file system and every failure of the operating system","needs a directory that can be opened but not entered",["generation/main.go: main"])
p("C104","The generator closes every file it opens","When the program returns every file it has opened is closed.","every file system and every failure of the operating system","needs fault injection in the middle of a read or write",["generation/main.go: main"])
p("C105","A silent run of the generator is a successful one","If no line that begins with '! ' was printed, the directory was listed completely and every source in it has its complete output beside it.","every file system and every failure of the operating system","it is about all failures at once: none may be swallowed",["generation/main.go: main"])
p("C106","Refused directives are reported","If no line that begins with '! ' was printed, all five arguments of every directive of every source of the directory are allowed, so no accessor is silently missing from the output.","every file system, sources with any contents, every failure of the operating system","it quantifies over all sources",["generation/complex.go: GenerateComplex","generation/main.go: main"])
p("C107","ReadBits and SetBits on a shared Buffer are sequences of single-bit calls","Goroutines calling ReadBits and SetBits at given positions and any methods with a single locked section, in any interleaving: the single-bit calls those two are made of and the other calls have an order, agreeing with time, in which executed alone one after another they have the same outcomes and leave the same memory. A whole ReadBits is not atomic: it can return half of what a concurrent SetBits stores.","every schedule, any number of goroutines, calls and bits; v2 and v1","a torn read needs a particular schedule; the order has to exist for all of them",["v2/buffer.go: readbits, setbits","v1/buffer.go: readbits, setbits"])
p("C108","Goroutines using different bits of a shared Buffer do not interfere","Goroutines call positioned Buffer methods (in v2 typed reads and writes, WriteBytes, WriteByte and the bit methods; in v1 WriteComplex, WriteBytes, WriteByte and the bit methods) within the length of the buffer, and nobody touches a bit that another changes - different bits of one byte count as different. Then in every interleaving each gets exactly the results it would get alone; and when nobody is running every changed bit is as the goroutine that changes it would have left it alone, while unchanged bits, the fields, the mutex and all other memory are as before.","every schedule, any number of goroutines and calls, every buffer, any positions; v2 and v1","interference through a shared byte shows in few interleavings",["v2/buffer.go","v1/buffer.go"])
p("C109","A Next call on a shared Buffer is a look, the call at the position seen, and a move","Goroutines calling any v2 Buffer methods but ReadByte, ReadByteNext, Grow, Refresh and Reset (in v1 also but ReadComplex and ReadComplexNext of integers wider than a byte), in any interleaving: each Next call is an Offset or BitOffset, the positioned call of the same name at the position that returned, and a relative seek by the number of bytes or bits transferred (none of the rest if one panics); all these parts, and the single-bit calls of ReadBits and SetBits, have an order, agreeing with time, in which executed alone one after another they have the same outcomes and leave the same state. So the interleavings of those parts are all that can go wrong between concurrent Next calls.","every schedule, any number of goroutines and calls, any arguments; v2 and v1","the order has to exist for all schedules, offsets read without the mutex included",["v2/buffer.go: *Next, seek, seekbit, Offset, BitOffset","v1/buffer.go: *Next, seek, seekbit, Offset, BitOffset"])
p("C110","Next calls are atomic when each offset is used by one goroutine","Goroutines call v2 Buffer methods (all but ReadByte, ReadByteNext, ReadBits, SetBits and their Next variants, Grow, Refresh and Reset; in v1 also but ReadComplex and ReadComplexNext of integers wider than a byte), and each of the two offsets is used by one goroutine at most - positioned calls use none, the byte-level Next calls, Seek, Offset and After the byte offset, the bit-level ones the bit offset, the alignments both. Then in every interleaving whole calls, Next calls included, have the same outcomes as executed alone in the order in which they first take the mutex (or end, if they never do), and leave the same memory, fields and mutex. So one goroutine can append, or read on, while others work at positions.","every schedule, any number of goroutines and calls, any arguments, any assignment of offsets to goroutines; v2 and v1","what C54 refutes for a shared offset has to be shown impossible for all interleavings otherwise",["v2/buffer.go","v1/buffer.go"])
p("C111","Parts of calls, owned offsets and different bits, for goroutines that run the text","C108, C109 and C110 hold of goroutines that run the text of v2/buffer.go and v1/buffer.go, parsed and interpreted step by step: whole calls are atomic when each offset has one user, and goroutines that use different bits get from the text what the text would give them alone; in both cases the sequential execution compared with also runs the text. An execution of the text is one of the model with results written as Go values, and that one is explained by looks, positioned calls and moves.","every schedule, any number of goroutines and calls, any fuel over 2^64 and depth of at least 4; v2 and v1","the model could differ from the text in some interleaving only",["v2/buffer.go","v1/buffer.go","v2/utils.go","v1/utils.go"])
p("C112","What goroutines get from a shared Buffer is what the reference machine answers","Goroutines make v2 or v1 Buffer calls with a single locked section, or (each offset having one user) Next calls as in C110, in any interleaving, with argument slices that exist at the start. When all have returned, and no write has ended with a run-time panic, the reference machine of C78 and C94, given the calls in the order in which they took the mutex, answers each call with the outcome its goroutine got - a returned slice being looked at when its call is over in that order - and ends with the bytes and offsets of the buffer; the mutex is free.","every schedule that ends, any number of goroutines and calls, every buffer, any arguments; v2 and v1","the answers have to fit one order of the calls, for all interleavings",["v2/buffer.go","v1/buffer.go"])
p("C113","A call accesses only its footprint","For every v2 and v1 Buffer call except Grow (and v2 Reset), the places it may read and the places it may change are given by a short table from its documentation: the bytes it is about, the slice it copies from, the offset a Next, Seek or Align method uses, and always the slice header and the capacities for reading. Run from any state whose capacities fit the content, with the mutex free or taken, whether it returns or panics, the call reads and changes no other place, makes no array, and releases the mutex only if it is taken. Hence every other place is as before, and two states that are the same where the call may read give the same outcome. ReadComplex of v1 may look at bytes behind the content; nothing else does.","every call with any arguments, every buffer state, mutex free or taken; v2 and v1","an access outside of the table shows only in some states and for some positions",["v2/buffer.go","v1/buffer.go"])
p("C114","Goroutines with separate footprints do not notice one another","Goroutines make any v2 or v1 Buffer calls except Grow (and v2 Reset), in any interleaving of single steps, and no goroutine changes a place that another one accesses, according to the footprints of its calls made alone. Then every call returns or panics as it would if its goroutine were alone; a goroutine between calls finds each place the others do not change as it would alone; what nobody changes is as before; the mutex is taken at the end only if some goroutine alone would leave it taken; and nobody races. This includes Next calls of a goroutine that owns the offset, and ReadByte and ReadComplex, which look at the content without the mutex. For calls with positions the footprints can be taken from the start.","every schedule, any number of goroutines and calls, every buffer, any arguments; v2 and v1","the steps of the calls interleave in unboundedly many ways",["v2/buffer.go","v1/buffer.go"])
p("C115","Goroutines that only read do not notice one another","Goroutines make v2 or v1 Buffer calls that read at given positions or ask for offsets and capacities, in any interleaving of single steps. Nothing is changed, every finished call has the outcome it has as the only call, nobody races, and the mutex is taken at the end only if one of the calls, as the only one, would leave it taken.","every schedule, any number of goroutines and calls, every buffer, any arguments; v2 and v1","ReadByte and ReadComplex look at the content without the mutex",["v2/buffer.go","v1/buffer.go"])
p("C116","Footprints, separation and readers, for the text","C113, C114 and C115 hold of the text of v2/buffer.go and v1/buffer.go, parsed and interpreted step by step: a call of the text accesses only its footprint, goroutines that run the text with separate footprints get and leave what the text would give them alone, and goroutines that only read get what a single call of the text gives.","every schedule, any number of goroutines and calls, any fuel over 2^64 and depth of at least 4; v2 and v1","the model could differ from the text in one access",["v2/buffer.go","v1/buffer.go","v2/utils.go","v1/utils.go"])
p("C117","A call of a shared Buffer that is not disturbed does what it does alone","A call during which no other goroutine changes a place the call may read, Grow and v2 Reset excepted, returns what it returns alone at its start, and leaves those places as it leaves them alone, though the other goroutines run all the while and may change any other place. ReadByte, which loads its byte after releasing the mutex, returns what a call made alone at one moment between its start and its end returns, provided no other goroutine changes the capacity or which memory is the content. Both hold of the text of the files.","every schedule, any number of goroutines and calls, every reachable well-formed state; v2 and v1, model and text","which steps of the others disturb a call depends on the schedule",["v2/buffer.go","v1/buffer.go","v2/buffer.go: ReadByte","v1/buffer.go: ReadByte, readComplex"])
p("C118","Calls that look outside their section are linearizable with the others","ReadByte loads its byte after releasing the mutex; Offset, BitOffset, After and AfterBit look at an offset without the mutex; Refresh assigns the capacities. Together with the calls that have one section (positioned reads and writes, single-bit and whole-buffer bit calls, seeks, aligns, Bytes and the capacities) they are linearizable: the calls can be put in one order, which keeps a call that ended before another was started in front of it, such that executed one at a time they have the same outcomes and leave the same state. So a ReadByte that loads between two stores of a write still has a place in the order. v1 ReadComplex of integers of more than a byte is not among them.","every schedule, any number of goroutines and calls, every well-formed buffer at rest, writes whose ranges do not overflow; v2 and v1, model and text","a byte is loaded in the middle of another goroutine's section only under specific schedules",["v2/buffer.go: ReadByte, Offset, BitOffset, After, AfterBit, Refresh","v1/buffer.go: ReadByte, Offset, BitOffset, After, AfterBit, Refresh"])
p("C119","No data races in the sense of the Go memory model","In an execution of goroutines that call methods of a shared v2 (or v1) Buffer, two accesses of different goroutines to the same field, slice header or byte, one of which changes it, are ordered by happens-before (program order, and an unlock before a later lock), however far apart they are in the execution.","every schedule, any number of goroutines and calls; v2 and v1, model and text","the race detector sees the schedules it happens to run",["v2/buffer.go","v1/buffer.go"])
p("C120","Single steps of the buffers without a mutex","Every public method of the v3 Buffer and of the v1, v2 and v3 MiniBuffers, executed from its text in single steps (one access to a field, to the slice header or to a byte, one copy, append or allocation at a time), has when nothing else runs the outcome of the model and leaves the state of the model.","every call with arguments that Go can have, every state","tests call methods on a few buffers and do not see the order of the accesses",["v3/buffer.generated.go","v3/minibuf.generated.go","v2/minibuf.go","v1/minibuf.go"])
p("C121","Data races on buffers without a mutex","Goroutines call methods of one shared v3 Buffer (or v1, v2, v3 MiniBuffer), executed from the text in single steps. A data race (happens-before of the Go memory model) is about a field, the slice header or the bytes, which the one call changes and the other one accesses, by a table of what each method changes and accesses. So goroutines whose calls do not change what the others access are in no data race; goroutines that only look get the outcomes of the model at the start, and change nothing. For each field, the header and the bytes there are calls that are in a data race; two ReadByteNext can return the same byte and move the offset once; a ReadBit can panic with an index out of range after its check.","every schedule, any number of goroutines and calls, any arguments","the tests have no goroutines, and the race detector sees only the schedules that happen",["v3/buffer.generated.go","v3/minibuf.generated.go","v2/minibuf.go","v1/minibuf.go"])
p("C122","Buffers without a mutex, guarded by the client","Any number of goroutines share one v3 Buffer (or v1, v2, v3 MiniBuffer), and each makes its calls, executed from the text in single steps, only with a mutex of the client locked: any number of calls per locked section, each chosen by the outcomes of the calls before, with panics recovered from or passed on. Then all sections have the outcomes they have one after another in the order of the locks, with each call doing what the model says, the buffer is left so, there is no data race, and nobody waits for ever. In particular no update is lost when goroutines add one to a byte; without the mutex one can be.","every schedule, any number of goroutines, sections and calls, any client code","the tests have no goroutines",["v3/buffer.generated.go","v3/minibuf.generated.go","v2/minibuf.go","v1/minibuf.go"])
p("C123","Goroutines that use different parts of a buffer without a mutex do not notice one another","Goroutines share a v3 Buffer (or a v1, v2 or v3 MiniBuffer) without a mutex, each call executed from the text in single steps in any interleaving. No call copies or makes memory (WriteBytes, WriteByte, Grow, Reset, in v1 WriteComplex), and no call of one goroutine changes a part (a field, the slice header, the bytes) that a call of another one accesses, by the tables of C121. Then every call has the outcome the model gives it when its goroutine is the only one; between its calls a goroutine finds every part that the others do not change as if it were the only one; and what nobody changes is as before.","every schedule, any number of goroutines and calls, any arguments, every buffer","the interleavings of single accesses cannot be enumerated",["v3/buffer.generated.go","v3/minibuf.generated.go","v2/minibuf.go","v1/minibuf.go"])
p("C124", "Goroutines that use different bytes of a v3 buffer without a mutex do not notice one another",
  "For every call on a v3 Buffer or MiniBuffer that makes no new array and leaves the content where it is, a short table from its documentation gives the bytes of the content it may read and change, beside the fields and the header of the tables of C121. Executed from the text in single steps, the call accesses nothing else, from any state, whether it returns or panics. Hence it leaves every other place as it is and depends only on what it may read. Goroutines that share such a buffer without a mutex, none of which changes a place another one accesses in the footprints of its calls made alone, do not notice one another: every call has the outcome the model gives it when its goroutine is the only one, each goroutine finds the places the others do not change as if it were the only one, what nobody changes is as before, and there is no data race. For calls with positions it is enough that they are about different bytes; different bits of one byte are not enough.",
  "every schedule, any number of goroutines and calls, any arguments, every buffer",
  "the interleavings of single accesses cannot be enumerated, and an access outside of the table shows only in some states",
  ["v3/buffer.generated.go", "v3/minibuf.generated.go"])
p("C125", "Goroutines that use different bytes of a v2 MiniBuffer without a mutex do not notice one another",
  "As C124 for the v2 MiniBuffer. For every call that makes no new array and leaves the content where it is, a short table from its documentation gives the bytes of the content it may read and change. Executed from the text of v2/minibuf.go in single steps, the call accesses nothing else beside the parts in the table of C121, from any state, whether it returns or panics. Hence it leaves every other place as it is and depends only on what it may read. Goroutines none of which changes a place another one accesses, in the footprints of its calls made alone, do not notice one another and are in no data race. For calls with positions it is enough that they are about different bytes.",
  "every schedule, any number of goroutines and calls, any arguments, every buffer",
  "the interleavings of single accesses cannot be enumerated, and an access outside of the table shows only in some states",
  ["v2/minibuf.go"])
p("C126", "Goroutines that use different bytes of a v1 MiniBuffer without a mutex do not notice one another",
  "As C124 for the v1 MiniBuffer. For every call that makes no new array and leaves the content where it is, a short table gives the bytes of the content it may read and change; ReadComplex may also read behind the content, in the capacity of the slice, and WriteComplex reads a byte slice given to it. Executed from the text of v1/minibuf.go in single steps, the call accesses nothing else beside the parts in the table of C121, from any state, whether it returns or panics. Hence it leaves every other place as it is and depends only on what it may read. Goroutines none of which changes a place another one accesses, in the footprints of its calls made alone, do not notice one another and are in no data race. For calls with positions it is enough that they are about different bytes.",
  "every schedule, any number of goroutines and calls, any arguments, every buffer",
  "the interleavings of single accesses cannot be enumerated, and an access outside of the table shows only in some states",
  ["v1/minibuf.go"])
p("C127", "Calls with positions on a shared v3 buffer race exactly when they are about a common byte that one of them changes",
  "The converse of C124. For every byte of the content that a successful call with a position on a v3 Buffer or MiniBuffer is about, by the table of C124, the byte matters to the call: a call that changes bytes changes this one unless it already holds what the call leaves there, and a call that only reads has different results for two values of the byte. Two goroutines that make two such calls without a mutex, executed from the text in single steps, can be in a data race exactly when some byte of the content is one that both calls are about and one of the calls changes bytes. Not covered: ReadBits of more than 64 bits, whose result does not hold all of them; the negative bit positions that a MiniBuffer accepts; and WriteBytes from a part of the buffer itself. The race is found from the given state up to the value of one byte of the content.",
  "every buffer, any two calls with positions that succeed, any arguments, every schedule",
  "a race detector reports a race only in schedules that were run, and it can not tell that no schedule has one",
  ["v3/buffer.generated.go", "v3/minibuf.generated.go"])
p("C128", "Calls with positions on a shared v2 or v1 MiniBuffer race exactly when they are about a common byte that one of them changes",
  "The converse of C125 and C126. For every byte of the content that a successful call with a position on a v2 or v1 MiniBuffer is about, the byte matters to the call: a call that changes bytes changes this one unless it already holds what the call leaves there, and a call that only reads has different results for two values of the byte. Two goroutines that make two such calls without a mutex, executed from the text in single steps, can be in a data race exactly when some byte of the content is one that both calls are about and one of the calls changes bytes. In v1 a ReadBits or SetBits of no bits is about no byte, so it races with nothing, and ReadComplex may read bytes behind the content, which no call with a position changes. Not covered: ReadBits of more than 64 bits; negative bit positions; and sources that are a part of the buffer itself. The race is found from the given state up to the value of one byte of the content.",
  "every buffer, any two calls with positions that succeed, any arguments, every schedule",
  "a race detector reports a race only in schedules that were run, and it can not tell that no schedule has one",
  ["v2/minibuf.go", "v1/minibuf.go"])
p("C129", "Which calls on a shared v2 or v1 Buffer can be in a data race, exactly",
  "The tables of C119 are exact. Two calls made by two goroutines on a shared v2 or v1 Buffer clash if one of them changes a field or the slice header that the other one reads without the mutex, or a byte of the content that the other one reads without the mutex; only ReadByte and, in v1, ReadComplex of numbers wider than a byte read bytes without it. From any state of a buffer, two calls can be in a data race (no happens-before between a change and another access of one place) only if they clash. If both calls made alone succeed and they clash, some schedule has the race, from this very state. Both hold for the model and for goroutines that run the text of the methods.",
  "every buffer, any two calls with any arguments, every schedule",
  "a race detector reports a race only in schedules that were run, and it can not tell that no schedule has one",
  ["v2/buffer.go", "v1/buffer.go"])
p("C130", "What goroutines running the text get from a shared Buffer is what the reference machine answers",
  "C112 for the text. Goroutines run the methods of v2/buffer.go or v1/buffer.go, parsed and interpreted in single steps, in any interleaving; the calls have a single locked section, or are Next calls on an offset that only one goroutine uses; their argument slices exist at the start. When all have returned, and no write has ended with a run-time panic, the Go value or panic each goroutine got from each call is the answer of the reference machine of C78 and C94 for the calls in the order in which they took the mutex, a returned slice being looked at when its call is over in that order. The machine ends with the bytes and offsets of the buffer, and the mutex is free.",
  "every schedule that ends, any number of goroutines and calls, every buffer, any arguments, any fuel over 2^64 and depth of at least 4; v2 and v1",
  "the answers have to fit one order of the calls, for all interleavings of single accesses of the text",
  ["v2/buffer.go", "v1/buffer.go", "v2/utils.go", "v1/utils.go"])
p("C131", "Buffers that share no bytes can be used by the goroutines of one program as if each were the only one",
  "Any number of v2 or v1 Buffers, each with its own fields and mutex, in one memory, and goroutines that call methods of any of them in any interleaving; the methods are those that make no new array (all but Grow, and Reset in v2). No element of one buffer is in reach of another one or in an argument of a call on another one; the buffers may lie in one array. Then the steps on one buffer are an execution of goroutines that share only this buffer, with the same calls, the same outcomes, and in the end the same fields, mutex and bytes, so that everything known about one buffer holds of each; bytes in no buffer do not change. If moreover the calls have a single locked section, or are Next calls on an offset of their buffer that only one goroutine uses, then when all have returned there is one order of all calls on all buffers, each at a moment between its beginning and its end, in which the calls made one at a time have the same outcomes and leave the same fields, mutexes and memory. Both hold for the model and for goroutines that run the text. Two buffers over the same bytes do not behave so: two FlipBit calls can flip a bit once.",
  "every schedule, any number of buffers, goroutines and calls, any arguments",
  "the interleavings on several buffers cannot be enumerated, and an access to a foreign byte shows only in some of them",
  ["v2/buffer.go", "v1/buffer.go"])
p("C132", "What is written through one buffer type of one version is read through any type of any version",
  "A list of non-empty messages (unsigned integers of 16, 32 or 64 bits, little or big endian), each written with the typed Next method of any of the six buffer types (Buffer and MiniBuffer of v1, v2, v3), where each message may use another one, leaves at the offset the encodings of the integers one after the other, and moves the offset by their size. A buffer with these bytes at its offset, anywhere, gives back the messages when they are read with the typed Next methods of any of the six types, again a different one for each message if one likes, whatever the variables handed to a MiniBuffer contain; the bytes may also be read divided into messages differently. Reading changes only the offset. All this also holds when the calls are made by running the texts of the six files.",
  "every list of messages, every assignment of buffer types to the writes and to the reads, every state and offset at which the messages fit",
  "the tests of each version write and read with that version only, and only a few fixed values",
  ["v1/buffer.go", "v1/minibuf.go", "v2/buffer.go", "v2/minibuf.go", "v3/buffer.generated.go", "v3/minibuf.generated.go"])
p("C133", "A program that uses a v3 Buffer prints what it prints on the reference machine; the example programs print what they are meant to",
  "Take any program of the form of the examples: it makes a buffer with NewBuffer(), calls its methods with constant arguments in any number and order, and prints results with fmt.Println, as they are or converted to a string. Run from the text of v3/buffer.generated.go, in any memory, it prints what it prints when the calls are made on the reference machine of C38, and ends as it ends there: normally, or with the same panic after the same output. In particular the texts of the three programs under examples, parsed and run, print 'hello, world'; the bytes of -42 and 69 in little-endian order, then '[-42 69]'; the bytes of 69, -21, -42.42 and 3.621 rounded to the nearest float64, in big-endian order, then these four numbers (how fmt writes a floating-point number is a parameter).",
  "every program of that form, every memory, every way to print floating-point numbers",
  "the examples are not tested at all, and a test would fix one program and one memory",
  ["examples/helloworld/main.go", "examples/signed-integers/main.go", "examples/floating-point/main.go", "v3/buffer.generated.go"])
p("C134", "The tests of the project pass, whatever append allocates ahead",
  "Each of the 366 test functions in buffer_test.go, minibuf_test.go and errors_test.go of v1, v2 and v3 is parsed from its text, and its calls are run from the texts of the package. Whatever policy append has for allocating ahead, the test passes: it comes to its end without t.Fatalf, or, with a deferred panicChecker, a call panics with the error that the checker expects. Any test of the form of those in errors_test.go passes exactly if it names an error value of the package and expects 'crunch: ', its scope, ': ' and its message.",
  "every test function of the nine files, every test of an error value, every policy of append (any function of the old capacity and the length needed)",
  "a run of the tests sees one policy of one Go release; the policy decides which calls reallocate and which slices share memory",
  ["v1/buffer_test.go", "v1/minibuf_test.go", "v2/buffer_test.go", "v2/minibuf_test.go", "v3/buffer_test.go", "v3/minibuf_test.go", "v1/errors_test.go", "v2/errors_test.go", "v3/errors_test.go"])
p("C135", "Who can see the room behind the bytes of a Buffer",
  "Take two Buffers that show the same: bytes, offsets and capacities. Between the end of the bytes and the end of the slice's capacity they may hold different bytes, and different numbers of them. The same history of calls on both gives the same results and leaves them showing the same: in v2 always; in v3 if that room holds only zeros, no bytes other than zeros are given up by TruncateRight or Reset, and memory does not run out; in v1 if no ReadComplex asks for integers that reach beyond the bytes. Both conditions are needed: any byte other than zero in the room of a v3 Buffer is shown by Grow, and any ReadComplex that reaches beyond the bytes of a v1 Buffer tells whether there is room. The room of a Buffer that NewBuffer makes of several slices is zeros, so a program that makes its Buffers this way and keeps to the conditions cannot tell what append allocates ahead. The same holds for histories run from the texts.",
  "all pairs of well-formed states, all histories of calls of one goroutine, all policies of append (any function of the old capacity and the length needed)",
  "a run sees one policy of append and one content of the room; that no history can tell two of them apart is a statement about pairs of runs",
  ["v3/buffer.generated.go", "v2/buffer.go", "v1/buffer.go", "v1/utils.go", "v2/utils.go"])
p("C136", "Who can see the room behind the bytes of a MiniBuffer",
  "Take two MiniBuffers that show the same: bytes, offsets and capacities. Between the end of the bytes and the end of the slice's capacity they may hold different bytes, and different numbers of them. The same history of calls on both gives the same results and leaves them showing the same, if ReadBytes (and in v1 ReadComplex) keeps to the bytes; in v3 also the room must hold only zeros, TruncateRight must get no negative number, no bytes other than zeros may be given up by TruncateRight, by Grow of a negative number or by Reset, and memory must not run out. A ReadBytes beyond the bytes does show the room, in every version: it returns the bytes there, and panics on a MiniBuffer that does not have them. A program that makes a MiniBuffer of several slices and keeps to these conditions cannot tell what append allocates ahead. The same holds for histories run from the texts.",
  "all pairs of well-formed states, all histories of calls with arbitrary result variables, all policies of append (any function of the old capacity and the length needed)",
  "a run sees one policy of append and one content of the room; that no history can tell two of them apart is a statement about pairs of runs",
  ["v3/minibuf.generated.go", "v2/minibuf.go", "v1/minibuf.go", "v1/utils.go", "v2/utils.go"])
p("C137", "The benchmarks of the project come to their end, for every b.N",
  "Each of the 32 benchmark functions of buffers in buffer_test.go and minibuf_test.go of v1, v2 and v3 is parsed from its text, and its calls are run from the texts of the package. For every number of rounds b.N, and whatever policy append has for allocating ahead, the benchmark comes to its end: no call panics, and no call waits for a mutex that an earlier round has left locked. The loops that Grow and Reset the same buffer do not let it grow without bound.",
  "every benchmark function of buffers in the six files, every b.N, every policy of append (any function of the old capacity and the length needed)",
  "go test chooses b.N by the time a round takes; a run has finitely many rounds, and a benchmark that only fails after more of them, as one with WriteBytesNext would, is not noticed",
  ["v1/buffer_test.go", "v1/minibuf_test.go", "v2/buffer_test.go", "v2/minibuf_test.go", "v3/buffer_test.go", "v3/minibuf_test.go", "v1/errors_test.go", "v2/errors_test.go", "v3/errors_test.go"])
p("C138", "The constants in programs and tests have the values that Go gives them",
  "An integer constant of the example programs and the tests, as the interpreter takes it, has exactly its value, and no value if its type cannot hold it. A floating-point constant has the sign of its value and otherwise the pattern of the finite number that is nearest to it, of two nearest numbers the even one; it has none exactly if it is at least half way from the largest finite number to the next power of two. So for every number of bits of fraction and exponent, and in particular for float32 and float64.",
  "all constants (any sign, any number of digits before and after the point), all formats with at least one bit of fraction and two of exponent",
  "the tests and examples hold a few constants, and a test cannot compare with all the other floating-point numbers",
  ["examples/floating-point/main.go", "examples/signed-integers/main.go", "v3/buffer_test.go"])
p("C139", "Bit fields written through one buffer type of one version are read through any type of any version",
  "Run from the texts of the source files: bit fields of width 1 or more that fit, each written with SetBitsNext through any of the six buffer types, put their bits one after the other at the bit offset, most significant first, move the bit offset by their number and change nothing else. Every buffer with these bits at its bit offset gives back the value of each field modulo two to its width with ReadBitsNext through any of the six types, also if the bits are divided into fields in another way, and reading changes only the bit offset.",
  "all lists of fields (any number, value, width and type, mixed), all buffers, all bit offsets where they fit",
  "the tests write or read single bits and fields of one type, never with one version what another one wrote",
  ["v1/buffer.go", "v1/minibuf.go", "v2/buffer.go", "v2/minibuf.go", "v3/buffer.generated.go", "v3/minibuf.generated.go"])
p("C140", "The six buffer types can be exchanged call by call",
  "Run from the texts of the source files: take any list of calls that all versions have (integers of several sizes and byte orders, bytes, bits, bit fields, whole-buffer bit operations, seeking, aligning, After, Refresh, Bytes, capacities and offsets), each made through any of the six buffer types on one and the same buffer. If the calls succeed when they are all made through the v3 Buffer, they succeed whichever type each is made through, the caller sees the same results, and bytes, room behind them and both offsets are the same at the end; no call changes memory outside the buffer. Bit counts must be positive, SetBit gets 0 or 1, bytes to write are at least one byte of another array, the result variables of MiniBuffers have room for the integers to read or hold zero for bits; Grow and Reset are left out.",
  "all lists of such calls (any length, arguments and types, mixed), all buffers, all contents of the result variables",
  "the tests use one type of one version each and never compare two of them",
  ["v1/buffer.go", "v1/minibuf.go", "v2/buffer.go", "v2/minibuf.go", "v3/buffer.generated.go", "v3/minibuf.generated.go"])
p("C141", "With only zeros behind the bytes the six buffer types can be exchanged call by call, Grow included",
  "Run from the texts of the source files: take any buffer with only zeros in the room behind its bytes, and any list of the calls that all versions have, Grow now among them, each made through any of the six buffer types on that one buffer. If no call panics where there is always memory and Grow adds zeros, then all calls succeed, with these results, these bytes and these offsets, whichever types they go through, or one of them is a Grow that would need more than half of all memory there can be. Two lists of the same calls through other types end with the same bytes, offsets and capacities.",
  "all lists of such calls (any length, arguments and types, mixed), all buffers with zeros behind their bytes, all contents of the result variables, whatever append allocates ahead",
  "the tests grow a few small buffers, each through one type of one version; v1 and v2 grow with append, v3 reslices the room or copies into twice the space",
  ["v1/buffer.go", "v1/minibuf.go", "v2/buffer.go", "v2/minibuf.go", "v3/buffer.generated.go", "v3/minibuf.generated.go"])
p("C142", "Which methods of the six buffer types reject exactly what the v3 Buffer rejects",
  "Run from the texts of the source files: all methods that the versions share, of the v2 and v3 Buffers; of the v1 Buffer all but the reads of integers and the three whole-buffer bit operations; of the MiniBuffers all that do not deal with bits at a position and do not read bytes, for v3 without the writes of bytes as well, and for v1 without the reads of integers and the whole-buffer operations, are strict: a list of calls through strict methods of any types, mixed, succeeds if and only if the same calls succeed on v3 Buffers only, with the same results, bytes, room and offsets. No other method is: for each of them there are a buffer and arguments that it takes and the v3 Buffer rejects with a panic.",
  "all lists of calls through strict methods (any length, arguments and types, mixed) and all buffers; all methods that are not strict",
  "the tests compare no two types, and only a few calls that are rejected",
  ["v1/buffer.go", "v1/minibuf.go", "v2/buffer.go", "v2/minibuf.go", "v3/buffer.generated.go", "v3/minibuf.generated.go"])
p("C143", "The Buffers of all versions report the same errors and go on in the same way",
  "Run from the texts of the source files: take any list of the calls that all versions have on one buffer, each through the Buffer of any version (for v1 without the reads of integers and the whole-buffer bit operations), each panic recovered by the caller. If on v3 Buffers no call ends in a panic of the Go runtime, then whichever versions the calls go through, none leaves the mutex taken, each call gives the same result or panics with an error of the same text, and bytes, room and offsets end the same. So a rejected call does the same to the buffer in all versions.",
  "all lists of such calls (any length, arguments and versions, mixed, any of them rejected), all buffers",
  "the tests recover a panic and end there; none goes on with the buffer, and none compares two versions",
  ["v1/buffer.go", "v2/buffer.go", "v3/buffer.generated.go"])
p("C144", "The MiniBuffers of all versions agree in every outcome, but for three kinds of methods",
  "Run from the texts of the source files: take any list of the calls that the MiniBuffers of all versions have on one buffer, each through the MiniBuffer of any version, except WriteBytes of v3, and the reads of integers and the three whole-buffer bit operations of v1; each panic is recovered by the caller. Whichever versions they go through, each call gives the same result or the same panic, and bytes, room and offsets end the same, also where a write is stored in part before the panic or a read goes beyond the bytes. The exceptions are needed: for each of these methods there are a buffer and arguments with which it succeeds while the same method of the v2 MiniBuffer panics.",
  "all lists of such calls (any length, arguments and versions, mixed, any of them out of range), all buffers; all methods that are excepted",
  "the tests never pass a MiniBuffer a position out of range and compare no two versions",
  ["v1/minibuf.go", "v2/minibuf.go", "v3/minibuf.generated.go"])
p("C145", "Buffers of any types that share bytes see each other's writes at once and keep their own offsets",
  "Run from the texts of the source files: take any number of buffers of the six types in one memory, over any slices, the same, overlapping or apart, and any list of the calls that all versions have but Grow and Reset, each on one of the buffers and through any type, where the bytes to write may be bytes of other buffers in other arrays. Keep all bytes once and two offsets per buffer. If no call panics in that bookkeeping on v3 Buffers, all calls succeed with its results, all bytes of memory end as there, and each buffer has its own offsets and its slice. So lists that succeed with v3 Buffers succeed with any types, with the same results, bytes and offsets.",
  "all families of buffers (any number, any slices, any overlap), all lists of such calls on them (any length, arguments and types, mixed)",
  "the tests make one buffer over each slice and never look at its bytes through another one",
  ["v1/buffer.go", "v1/minibuf.go", "v2/buffer.go", "v2/minibuf.go", "v3/buffer.generated.go", "v3/minibuf.generated.go"])
p("C146", "Buffers of any types that share bytes give the same results and panics whichever version they are of",
  "Run from the texts of the source files: take any number of buffers of the six types in one memory, over any slices, the same, overlapping or apart, and any list of calls on them by the methods on which the Buffers (C143) or the MiniBuffers (C144) of all versions agree, each panic recovered by the caller. Keep all bytes once and two offsets per buffer. If that bookkeeping ends no call on a Buffer in a panic of the Go runtime, then no mutex is left taken, each call gives the result or the panic of the bookkeeping, and all bytes of memory and all offsets end as there, also where a MiniBuffer stores a part of its argument before it panics and another buffer shows that part. So Buffers can be exchanged for Buffers and MiniBuffers for MiniBuffers of any version, with the same results, panics, bytes and offsets.",
  "all families of buffers (any number, any slices, any overlap), all lists of such calls on them (any length, arguments and versions, mixed, any of them rejected)",
  "the tests make one buffer over each slice, end with the first panic and compare no two versions",
  ["v1/buffer.go", "v1/minibuf.go", "v2/buffer.go", "v2/minibuf.go", "v3/buffer.generated.go", "v3/minibuf.generated.go"])
open("/verif/properties.jsonl","w").write("".join(json.dumps(x)+"\n" for x in P))
print(len(P))
