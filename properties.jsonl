{"id": "C01", "title": "Typed write/read round trip", "statement": "Writing a non-empty slice of any of the sixteen element type/endianness combinations at an in-range byte offset and then reading the same number of elements with the matching reader at the same offset returns exactly the slice written.", "quantifier": "every buffer content, every in-range offset, every slice length and every element value, for U/I/F x 16/32/64 x LE/BE", "why_tests_cant": "2^64 values per element, unbounded slice lengths and buffer sizes; tests check a handful of literals", "anchors": ["v3/buffer.generated.go: WriteU16LE..WriteF64BE (16 methods)", "v3/buffer.generated.go: ReadU16LE..ReadF64BE (16 methods)"]}
{"id": "C02", "title": "Byte layout of typed writes", "statement": "After a typed write at offset off, byte off + w*i + k is byte k (counted from the least significant for LE, from the most significant for BE) of the two's complement / IEEE bit pattern of element i, w being the element width in bytes.", "quantifier": "every buffer, offset, data slice, element value, element index and byte index", "why_tests_cant": "interoperability with other little/big-endian producers depends on every byte of every value; a table of literals cannot cover it", "anchors": ["v3/buffer.generated.go: WriteU16LE..WriteF64BE (16 methods)"]}
{"id": "C03", "title": "Value of typed reads", "statement": "A typed read of n>=1 elements at an in-range offset returns n elements, element i being the number whose base-256 digits are bytes off+w*i..off+w*i+w-1 in the named endianness, reinterpreted as signed or floating-point bits for I/F.", "quantifier": "every buffer content, in-range offset and count", "why_tests_cant": "decoding must be right for data produced by others, not only for bytes the library wrote itself", "anchors": ["v3/buffer.generated.go: ReadU16LE..ReadF64BE (16 methods)"]}
{"id": "C04", "title": "Writes touch only the addressed range", "statement": "A successful WriteBytes, WriteByte or typed write changes only the bytes [off, off+size) of the buffer; every other byte, the capacities, both offsets and all memory outside the buffer's backing window stay the same.", "quantifier": "every buffer, offset, data and every byte position outside the range", "why_tests_cant": "absence of collateral damage is a universally quantified negative", "anchors": ["v3/buffer.generated.go: WriteU16LE..WriteF64BE (16 methods)", "v3/buffer.generated.go: WriteBytes, WriteByte"]}
{"id": "C05", "title": "Reads are pure", "statement": "Read operations at an explicit offset (bytes, typed, bit, bits), capacity/offset getters, AfterByte/AfterBit and Bytes leave every byte of memory, both capacities and both offsets unchanged, whether they succeed or panic.", "quantifier": "every state and every argument, including out-of-range ones", "why_tests_cant": "needs comparison of the whole state before and after for all inputs", "anchors": ["v3/buffer.generated.go: ReadU16LE..ReadF64BE (16 methods)", "v3/buffer.generated.go: ReadBytes, ReadByte, ReadBit, ReadBits, Bytes, ByteCapacity, BitCapacity, ByteOffset, BitOffset, AfterByte, AfterBit"]}
{"id": "C06", "title": "Next byte operations are the positioned operation plus an advance", "statement": "Each byte-level ...Next operation has the result and memory effect of the positioned operation at the current byte offset, then moves the byte offset forward by exactly the number of bytes transferred; if it panics the byte offset has not moved. The bit offset never moves.", "quantifier": "every state, count and data slice, for all 36 byte-level Next methods", "why_tests_cant": "cursor drift shows only after particular histories; must hold for every width and count", "anchors": ["v3/buffer.generated.go: *Next byte methods, SeekByte"]}
{"id": "C07", "title": "Exact bounds check of byte-level writes", "statement": "A byte-level write of size bytes (non-empty for typed writes) succeeds if and only if 0 <= off and off+size <= capacity; otherwise, provided off+size does not exceed the int64 range, it panics with BufferOverwriteError when off+size > capacity and with BufferUnderwriteError when it fits but off < 0.", "quantifier": "every buffer, every int64 offset, every data slice", "why_tests_cant": "off-by-one boundary conditions at every size and offset", "anchors": ["v3/buffer.generated.go: WriteU16LE..WriteF64BE (16 methods)", "v3/buffer.generated.go: WriteBytes, WriteByte", "v3/errors.go"]}
{"id": "C08", "title": "Exact bounds check of byte-level reads", "statement": "A byte-level read of n elements of width w (n>=1 for typed reads, n>=0 for ReadBytes) succeeds iff 0 <= off and off+n*w <= capacity; otherwise, when off+n*w does not overflow int64, it panics with BufferOverreadError if off+n*w > capacity and BufferUnderreadError if it fits but off < 0.", "quantifier": "every buffer and every int64 off and n", "why_tests_cant": "boundary conditions at every size and offset", "anchors": ["v3/buffer.generated.go: ReadU16LE..ReadF64BE (16 methods)", "v3/buffer.generated.go: ReadBytes, ReadByte", "v3/errors.go"]}
{"id": "C09", "title": "Failed byte-level writes change nothing", "statement": "When WriteBytes, WriteByte or any typed write on a Buffer panics, for whatever reason, no byte of memory and no field of the buffer has changed.", "quantifier": "every state, every int64 offset, every data slice including those whose bound computation overflows", "why_tests_cant": "crash-point property over all inputs", "anchors": ["v3/buffer.generated.go: WriteU16LE..WriteF64BE (16 methods)", "v3/buffer.generated.go: WriteBytes, WriteByte"]}
{"id": "C10", "title": "Checked reads never disclose bytes outside the buffer", "statement": "For every int64 off and n, ReadBytes, ReadByte and typed reads on a Buffer either panic or return data made only of bytes at positions inside [0, capacity), even when the bound computation wraps around int64.", "quantifier": "all pairs of int64 arguments (2^128) and all buffers", "why_tests_cant": "integer overflow corner cases cannot be sampled", "anchors": ["v3/buffer.generated.go: ReadU16LE..ReadF64BE (16 methods)", "v3/buffer.generated.go: ReadBytes, ReadByte"]}
{"id": "C11", "title": "Zero-length transfers are harmless", "statement": "Writing an empty slice, or reading zero elements, at an offset inside the buffer succeeds, changes nothing and returns an empty result.", "quantifier": "every buffer, every offset, every element type", "why_tests_cant": "every offset x type x state; unit tests never pass an empty slice", "anchors": ["v3/buffer.generated.go: WriteU16LE..WriteF64BE (16 methods)", "v3/buffer.generated.go: ReadU16LE..ReadF64BE (16 methods)", "v3/buffer.generated.go: WriteBytes, ReadBytes"]}
{"id": "C12", "title": "Out-of-range accesses are reported with the library's own errors", "statement": "Every byte-level access that is not inside the buffer panics with one of the library's Buffer*Error values rather than with a Go runtime error.", "quantifier": "all int64 offsets and counts", "why_tests_cant": "requires reasoning about int64 wrap-around", "anchors": ["v3/buffer.generated.go: WriteU16LE..WriteF64BE (16 methods)", "v3/buffer.generated.go: ReadU16LE..ReadF64BE (16 methods)", "v3/buffer.generated.go: WriteBytes, ReadBytes", "v3/errors.go"]}
{"id": "C13", "title": "Raw byte round trip", "statement": "WriteBytes(off,d) followed by ReadBytes(off,len(d)) returns the bytes of d; WriteByte/ReadByte likewise; ReadByte(off) is byte off of the buffer.", "quantifier": "every buffer, offset and data", "why_tests_cant": "unbounded sizes and values", "anchors": ["v3/buffer.generated.go: WriteBytes, ReadBytes, WriteByte, ReadByte"]}
{"id": "C14", "title": "Overlapping source is copied as if through a temporary", "statement": "WriteBytes whose source slice overlaps the buffer's own memory (for example a slice obtained from Bytes or ReadBytes) stores the bytes the source had before the call.", "quantifier": "every overlap geometry of source and destination", "why_tests_cant": "all relative positions and lengths of overlap", "anchors": ["v3/buffer.generated.go: WriteBytes"]}
{"id": "C15", "title": "Bit numbering is most-significant-first", "statement": "ReadBit(off) is 1 exactly when bit 7-(off mod 8) of byte off div 8 is set, for every off in [0, BitCapacity).", "quantifier": "every buffer and bit offset", "why_tests_cant": "every position in every buffer", "anchors": ["v3/buffer.generated.go: ReadBit"]}
{"id": "C16", "title": "Single-bit updates change exactly one bit", "statement": "SetBit, ClearBit and FlipBit at an in-range bit offset make that bit 1, 0, or its negation and leave every other bit, the capacities and both offsets unchanged.", "quantifier": "every buffer, bit offset and every other bit position", "why_tests_cant": "frame condition over all bits", "anchors": ["v3/buffer.generated.go: SetBit, ClearBit, FlipBit"]}
{"id": "C17", "title": "Multi-bit read value", "statement": "ReadBits(off,n) for n>=1 in range returns the number whose binary digits, most significant first, are bits off..off+n-1, modulo 2^64 (so exact for n<=64 and the last 64 bits for larger n).", "quantifier": "every buffer, offset and n", "why_tests_cant": "all bit strings of all lengths at all alignments", "anchors": ["v3/buffer.generated.go: ReadBits"]}
{"id": "C18", "title": "Multi-bit write effect and round trip", "statement": "SetBits(off,data,n) for n>=1 in range makes bits off..off+n-1 the low n binary digits of data, most significant first (zero-extended when n>64), changes no other bit, and ReadBits(off,n) then returns data modulo 2^n.", "quantifier": "every buffer, offset, data and n", "why_tests_cant": "all values at all alignments", "anchors": ["v3/buffer.generated.go: SetBits, ReadBits"]}
{"id": "C19", "title": "Exact bounds check of bit operations", "statement": "ReadBit/SetBit/ClearBit/FlipBit succeed iff 0 <= off < BitCapacity; otherwise they panic with the over error when off >= BitCapacity and the under error when off < 0, and change nothing. ReadBits/SetBits with n>=1 succeed iff 0<=off and off+n<=BitCapacity.", "quantifier": "every buffer and every int64 offset and count", "why_tests_cant": "all int64 values including the extremes", "anchors": ["v3/buffer.generated.go: ReadBit, ReadBits, SetBit, ClearBit, FlipBit, SetBits", "v3/errors.go"]}
{"id": "C20", "title": "A failed multi-bit write changes nothing", "statement": "When SetBits panics because the range does not fit, the buffer is unchanged.", "quantifier": "every buffer, offset, data, n", "why_tests_cant": "crash point inside the bit loop depends on all four inputs", "anchors": ["v3/buffer.generated.go: SetBits"]}
{"id": "C21", "title": "Non-positive bit counts are harmless", "statement": "ReadBits(off,n) and SetBits(off,data,n) with n<=0 read nothing and change nothing.", "quantifier": "every buffer, offset, data and n<=0", "why_tests_cant": "every state and argument", "anchors": ["v3/buffer.generated.go: ReadBits, SetBits"]}
{"id": "C22", "title": "Next bit operations are the positioned operation plus an advance", "statement": "ReadBitNext, ReadBitsNext, SetBitNext, ClearBitNext, SetBitsNext, FlipBitNext act at the current bit offset and then advance it by 1 or n; if they panic the bit offset has not moved; the byte offset never moves.", "quantifier": "every state and argument", "why_tests_cant": "cursor property over all histories", "anchors": ["v3/buffer.generated.go: ReadBitNext, ReadBitsNext, SetBitNext, ClearBitNext, SetBitsNext, FlipBitNext, SeekBit"]}
{"id": "C23", "title": "Bit view and byte view agree", "statement": "Reading 8*w bits at bit offset 8*k gives the same number as reading one w-byte unsigned big-endian integer at byte offset k; and SetBits of 8*w bits at 8*k has the same effect as the big-endian write.", "quantifier": "every buffer, byte offset, width and value", "why_tests_cant": "two independent code paths must agree everywhere", "anchors": ["v3/buffer.generated.go: ReadBits, SetBits, ReadU16BE, ReadU32BE, ReadU64BE, ReadByte, WriteU16BE, WriteU32BE, WriteU64BE"]}
{"id": "C24", "title": "Whole-buffer bit operations", "statement": "On a non-empty buffer ClearAllBits makes every byte 0x00, SetAllBits makes every byte 0xFF, FlipAllBits complements every bit, the length, capacities and offsets stay the same, and FlipAllBits twice (like FlipBit twice) restores the content.", "quantifier": "every non-empty buffer", "why_tests_cant": "every size and content", "anchors": ["v3/buffer.generated.go: ClearAllBits, SetAllBits, FlipAllBits, FlipBit"]}
{"id": "C25", "title": "Whole-buffer bit operations never panic", "statement": "ClearAllBits, SetAllBits and FlipAllBits return normally on every buffer, including an empty one.", "quantifier": "every buffer", "why_tests_cant": "every state", "anchors": ["v3/buffer.generated.go: ClearAllBits, SetAllBits, FlipAllBits"]}
{"id": "C26", "title": "Cached capacities are always right", "statement": "After any sequence of operations on a new buffer, whether individual operations succeeded or panicked, ByteCapacity equals the length of Bytes and BitCapacity is eight times that.", "quantifier": "every finite sequence of operations with arbitrary arguments", "why_tests_cant": "unbounded histories", "anchors": ["v3/buffer.generated.go: Refresh, Grow, TruncateLeft, TruncateRight, Reset, NewBuffer, all methods"]}
{"id": "C27", "title": "Seek and After arithmetic", "statement": "SeekByte/SeekBit set the offset to off or to the old offset plus off and change nothing else; AfterByte/AfterBit return capacity - position - 1 for the current or the given position.", "quantifier": "every state and every int64 argument (wrapping)", "why_tests_cant": "all int64 values", "anchors": ["v3/buffer.generated.go: SeekByte, SeekBit, AfterByte, AfterBit"]}
{"id": "C28", "title": "Alignment", "statement": "AlignBit makes the bit offset eight times the byte offset; AlignByte makes the byte offset the bit offset divided by eight rounded toward zero; AlignBit then AlignByte restores the byte offset (when it is within +-2^60); AlignByte then AlignBit rounds a non-negative bit offset down to a multiple of eight.", "quantifier": "every pair of offsets", "why_tests_cant": "all int64 values incl. negatives", "anchors": ["v3/buffer.generated.go: AlignBit, AlignByte"]}
{"id": "C29", "title": "Truncation effect and errors", "statement": "TruncateLeft(n)/TruncateRight(n) with 0<=n<=capacity remove exactly the first/last n bytes, keep the remaining bytes and both offsets; n<0 panics with BufferInvalidByteCountError; n>capacity panics with a runtime error; a panic changes nothing.", "quantifier": "every buffer and every int64 n", "why_tests_cant": "all sizes and boundary values", "anchors": ["v3/buffer.generated.go: TruncateLeft, TruncateRight"]}
{"id": "C30", "title": "Truncation algebra", "statement": "Truncating left by m then n equals truncating left by m+n, likewise on the right, and left and right truncations commute.", "quantifier": "every buffer and all m,n that fit", "why_tests_cant": "algebraic law over all sizes", "anchors": ["v3/buffer.generated.go: TruncateLeft, TruncateRight"]}
{"id": "C31", "title": "Grow keeps content and adds exactly n bytes", "statement": "Grow(n), n>=0, if it returns, increases the capacity by exactly n, keeps all existing bytes and both offsets; n<0 panics with BufferInvalidByteCountError; a panic changes nothing.", "quantifier": "every buffer, spare capacity and every int64 n", "why_tests_cant": "all combinations of length, spare capacity and n", "anchors": ["v3/buffer.generated.go: Grow"]}
{"id": "C32", "title": "Grown bytes are zero", "statement": "The n bytes added by Grow(n) are zero bytes (the shipped example says it expands the buffer 'to have 12 null bytes').", "quantifier": "every history before the Grow", "why_tests_cant": "depends on the whole history of truncations and resets", "anchors": ["v3/buffer.generated.go: Grow, Reset, TruncateRight", "examples/helloworld/main.go"]}
{"id": "C33", "title": "Grow undoes TruncateRight", "statement": "Grow(n) directly after TruncateRight(n) restores exactly the original content.", "quantifier": "every buffer and n", "why_tests_cant": "all sizes", "anchors": ["v3/buffer.generated.go: Grow, TruncateRight"]}
{"id": "C34", "title": "Constructor concatenates", "statement": "NewBuffer(s1,...,sk) yields a buffer whose bytes are the concatenation of the slices in order, with capacity the total length and both offsets zero, whatever capacity the runtime's append chooses.", "quantifier": "every number of slices, all contents, every append growth policy", "why_tests_cant": "unbounded argument lists and an unspecified allocator policy", "anchors": ["v3/buffer.generated.go: NewBuffer"]}
{"id": "C35", "title": "Constructor sharing", "statement": "A buffer made from exactly one slice shares memory with it (a write through either is seen by the other); a buffer made from zero or several slices shares memory with none of them.", "quantifier": "every heap, slices, and later write", "why_tests_cant": "aliasing over all heaps and later operations", "anchors": ["v3/buffer.generated.go: NewBuffer"]}
{"id": "C36", "title": "Views stay live until reallocation", "statement": "A slice obtained from Bytes or ReadBytes shows the result of every later in-place operation on the buffer; after a Grow that exceeds the spare capacity the old view keeps its contents and later buffer writes no longer affect it.", "quantifier": "every buffer, view and later operation sequence", "why_tests_cant": "aliasing across arbitrary later histories", "anchors": ["v3/buffer.generated.go: Bytes, ReadBytes, Grow"]}
{"id": "C37", "title": "Reset", "statement": "Reset makes the buffer empty with zero capacities and offsets, never panics, and touches no memory.", "quantifier": "every state", "why_tests_cant": "every state", "anchors": ["v3/buffer.generated.go: Reset"]}
{"id": "C38", "title": "Every operation history behaves like a plain byte list with two cursors", "statement": "For any sequence of operations, the results (values or panics) and the final content, capacities and offsets are those of a simple reference machine holding the byte list, the hidden spare bytes, a byte cursor and a bit cursor.", "quantifier": "every finite operation sequence with arbitrary arguments from every reachable state", "why_tests_cant": "unbounded histories", "anchors": ["v3/buffer.generated.go: all methods"]}
{"id": "C39", "title": "Message stream round trip", "statement": "Writing any sequence of typed slices of mixed types and endiannesses with the Next writers, seeking back to the start and reading the same types and counts with the Next readers returns the same slices, and the offset ends at the same place.", "quantifier": "every list of (type, endianness, non-empty slice) that fits", "why_tests_cant": "unbounded heterogeneous sequences", "anchors": ["v3/buffer.generated.go: WriteU16LE..WriteF64BE (16 methods)", "v3/buffer.generated.go: ReadU16LE..ReadF64BE (16 methods)", "v3/buffer.generated.go: SeekByte"]}
{"id": "C40", "title": "Bit-field stream round trip", "statement": "Writing any sequence of bit fields with SetBitsNext, seeking back and reading the same widths with ReadBitsNext returns each value modulo 2^width.", "quantifier": "every list of (value,width>=1) that fits", "why_tests_cant": "unbounded sequences at all alignments", "anchors": ["v3/buffer.generated.go: SetBitsNext, ReadBitsNext, SeekBit"]}
{"id": "C41", "title": "Independent writes commute, later writes win", "statement": "Two in-range writes to disjoint byte ranges can be exchanged without changing the result; of two writes to the same range the later one determines the content.", "quantifier": "every pair of writes of any type", "why_tests_cant": "all pairs of ranges and values", "anchors": ["v3/buffer.generated.go: WriteU16LE..WriteF64BE (16 methods)", "v3/buffer.generated.go: WriteBytes"]}
{"id": "C42", "title": "Type and endianness duality", "statement": "Reading signed or floating-point elements gives the reinterpretation of the unsigned read at the same place; the big-endian encoding of an element is the reverse of its little-endian encoding, so reading one endianness what was written in the other yields the byte-swapped value.", "quantifier": "every value and type", "why_tests_cant": "all 2^16..2^64 values", "anchors": ["v3/buffer.generated.go: WriteU16LE..WriteF64BE (16 methods)", "v3/buffer.generated.go: ReadU16LE..ReadF64BE (16 methods)"]}
{"id": "C43", "title": "MiniBuffer agrees with Buffer wherever Buffer succeeds", "statement": "Whenever a Buffer operation succeeds, the corresponding MiniBuffer operation from the same state succeeds with the same result (stored through out) and the same effect on memory, offsets and capacities.", "quantifier": "every operation, state and argument", "why_tests_cant": "two code bases compared over all inputs", "anchors": ["v3/buffer.generated.go", "v3/minibuf.generated.go"]}
{"id": "C44", "title": "MiniBuffer.ReadBits stores the bits read", "statement": "MiniBuffer.ReadBits(&out,off,n) leaves in out the number formed by the n bits.", "quantifier": "every buffer, offset, n and previous value of out", "why_tests_cant": "depends on the previous content of out", "anchors": ["v3/minibuf.generated.go: ReadBits, ReadBitsNext"]}
{"id": "C45", "title": "MiniBuffer accesses stay within the buffer", "statement": "A MiniBuffer read or write outside [0, capacity) never succeeds silently.", "quantifier": "every state and argument", "why_tests_cant": "all out-of-range arguments and spare capacities", "anchors": ["v3/minibuf.generated.go: ReadBytes, WriteBytes, ReadBit, SetBit, ClearBit, FlipBit"]}
{"id": "C46", "title": "A failed MiniBuffer typed write changes nothing", "statement": "When a MiniBuffer typed write panics, no byte of the buffer has changed.", "quantifier": "every state, offset and data", "why_tests_cant": "crash point inside the element loop", "anchors": ["v3/minibuf.generated.go: WriteU16LE..WriteF64BE"]}
{"id": "C47", "title": "MiniBuffer resize with negative counts", "statement": "MiniBuffer.Grow(-n) removes the last n bytes and TruncateRight(-n) extends into the spare capacity; TruncateLeft(-n) panics; in all cases the cached capacities stay consistent and a panic changes nothing.", "quantifier": "every state and every int64 n", "why_tests_cant": "all int64 values", "anchors": ["v3/minibuf.generated.go: Grow, TruncateLeft, TruncateRight"]}
{"id": "C48", "title": "Isolation of buffers", "statement": "No operation on a buffer changes any memory outside the window [start, start+cap) of its own backing array; hence buffers with disjoint backing memory never influence each other.", "quantifier": "every operation sequence and every other slice in memory", "why_tests_cant": "frame over all memory and histories", "anchors": ["v3/buffer.generated.go: all methods", "v3/minibuf.generated.go: all methods"]}
{"id": "C49", "title": "Refresh is unnecessary", "statement": "In every state reachable through the public API Refresh changes nothing.", "quantifier": "every reachable state", "why_tests_cant": "all histories", "anchors": ["v3/buffer.generated.go: Refresh"]}
{"id": "C50", "title": "v2 agrees with v3", "statement": "Whenever the v3 Buffer operation succeeds, the v2 Buffer operation of the same meaning gives the same result and content (for typed U16/U32/U64 reads and writes, bits, seeks and aligns).", "quantifier": "every state and argument", "why_tests_cant": "two code bases compared over all inputs", "anchors": ["v2/buffer.go", "v3/buffer.generated.go"]}
{"id": "C51", "title": "v2 Grow appends zero bytes", "statement": "v2 Grow(n), n>=0, keeps the content and appends exactly n zero bytes, whatever the spare capacity holds.", "quantifier": "every state, spare capacity content, append growth policy and n", "why_tests_cant": "all histories", "anchors": ["v2/buffer.go: grow", "v2/minibuf.go: grow"]}
{"id": "C52", "title": "v2 Buffer mutual exclusion", "statement": "In every interleaving of any number of goroutines calling v2 Buffer methods, at most one goroutine is inside a locked section, and buffer memory is modified only inside it.", "quantifier": "every schedule and every set of operations", "why_tests_cant": "exponentially many schedules", "anchors": ["v2/buffer.go"]}
{"id": "C53", "title": "v2 concurrent positioned operations are atomic", "statement": "In every interleaving of goroutines performing positioned v2 writes, reads and bit operations, the memory reached is that of executing the completed locked sections one after another in the order in which the lock was acquired.", "quantifier": "every schedule, any number of goroutines", "why_tests_cant": "exponentially many schedules", "anchors": ["v2/buffer.go: write, writeU*, setbit, flipbit"]}
{"id": "C54", "title": "v2 concurrent Next operations each use their own region", "statement": "Concurrent WriteBytesNext calls on a v2 Buffer (documented as concurrent-safe) each write to a distinct consecutive region, as some sequential order would.", "quantifier": "every schedule", "why_tests_cant": "a lost update shows up only under specific schedules", "anchors": ["v2/buffer.go: WriteBytesNext, write, seek"]}
{"id": "C55", "title": "v2 operations release the lock", "statement": "After any v2 Buffer method call that returns or panics, the mutex is free so that other calls can proceed.", "quantifier": "every operation, state and argument", "why_tests_cant": "a stuck mutex needs a particular panic inside the locked region", "anchors": ["v2/buffer.go: write, writeU*, grow"]}
{"id": "C56", "title": "v1 Complex write/read round trip", "statement": "v1 WriteComplex followed by ReadComplex of the same count, size and byte order at the same offset returns the written integers.", "quantifier": "every in-range offset, data, size and order", "why_tests_cant": "all values and sizes", "anchors": ["v1/buffer.go: writeComplex, readComplex"]}
{"id": "C57", "title": "v1 ReadComplex stays inside the buffer", "statement": "v1 Buffer.ReadComplex returns only data from inside the buffer's capacity, otherwise panics with BufferOverreadError.", "quantifier": "every state, offset, count and size", "why_tests_cant": "depends on spare capacity of the backing array", "anchors": ["v1/buffer.go: read, readComplex"]}
{"id": "C58", "title": "v1 argument validation", "statement": "v1 WriteComplex/ReadComplex with an integer size other than 1,2,4,8 panic with BufferInvalidIntegerSizeError and v1/v2 SetBit with a bit value other than 0 or 1 panics with BufferInvalidBitError, changing nothing.", "quantifier": "every size/bit value and state", "why_tests_cant": "all values", "anchors": ["v1/buffer.go: writeComplex, readComplex, setbit", "v2/buffer.go: setbit"]}
{"id": "C59", "title": "Generated accessors are what the generator emits", "statement": "For every valid directive the generator emits exactly the guards, index/shift pattern and advance of the accessor committed in the generated files.", "quantifier": "every directive (receiver, direction, kind, width, endianness)", "why_tests_cant": "the committed files could have been edited or be stale", "anchors": ["generation/complex.go: GenerateComplex", "v3/_buffer.go", "v3/_minibuf.go"]}
{"id": "C60", "title": "Generator argument validation", "statement": "A directive is expanded iff receiver is Buffer/MiniBuffer, direction Read/Write, kind I/U/F, width 16/32/64 and order BE/LE; otherwise it is replaced by a comment naming the first offending position; text that is not a directive is preserved.", "quantifier": "every string of arguments, every file", "why_tests_cant": "all strings", "anchors": ["generation/complex.go: GenerateComplex"]}
{"id": "C61", "title": "Generator output names", "statement": "Distinct selected source files give distinct output names, and an output name is never the name of a selected source unless a source name starts with two underscores.", "quantifier": "all file names", "why_tests_cant": "all strings", "anchors": ["generation/main.go: main"]}
{"id": "C62", "title": "Regeneration replaces the output file", "statement": "After running the generator the output file contains exactly the generated contents, whatever it contained before.", "quantifier": "every previous and new content", "why_tests_cant": "depends on relative lengths of old and new content", "anchors": ["generation/main.go: main"]}
{"id": "C63", "title": "Errors are distinguishable", "statement": "The exported error values of each package are pairwise distinct and so are their Error() strings, which have the form 'crunch: <scope>: <message>'.", "quantifier": "every pair of errors; the format for every scope and message", "why_tests_cant": "finite but never tested pairwise", "anchors": ["v1/errors.go", "v2/errors.go", "v3/errors.go"]}
{"id": "C64", "title": "Every MiniBuffer history follows a reference machine", "statement": "For any sequence of MiniBuffer calls with arbitrary arguments and arbitrary previous contents of the result variables, the results (values or run-time errors) and the final content, capacities and offsets are those of a small reference machine over a byte list, spare bytes and two cursors.", "quantifier": "every finite call sequence, arbitrary arguments and result variables", "why_tests_cant": "unchecked accesses with negative, overlapping or oversized arguments have effects no test looks at", "anchors": ["v3/minibuf.generated.go: all methods"]}
{"id": "C65", "title": "MiniBuffer cached capacities are always right", "statement": "After any sequence of MiniBuffer calls on a new buffer, successful or not, ByteCapacity equals the length of Bytes, BitCapacity is eight times that, and Refresh changes nothing.", "quantifier": "every finite sequence of calls with arbitrary arguments", "why_tests_cant": "requires an invariant over all histories", "anchors": ["v3/minibuf.generated.go: Refresh, Grow, TruncateLeft, TruncateRight, Reset, NewMiniBuffer, all methods"]}
{"id": "C66", "title": "v2 WriteBytes copies the source as it was", "statement": "v2 WriteBytes(off,data) that returns leaves at off the bytes data had before the call, also when data is a view into the buffer that overlaps the destination.", "quantifier": "every buffer, offset and source slice, overlapping or not", "why_tests_cant": "depends on the relative position of two views of one array", "anchors": ["v2/buffer.go: write, WriteBytes"]}
{"id": "C67", "title": "v2 calls with one locked section are linearizable", "statement": "In every interleaving of goroutines making v2 Buffer calls whose work is done in one locked section (positioned typed and raw writes and reads, single-bit operations, ClearAll/SetAll/FlipAll, Seek, SeekBit, aligns), results, panics and the final state are those of the calls executed one at a time in an order that respects real time.", "quantifier": "every schedule, any number of goroutines and calls", "why_tests_cant": "exponentially many schedules", "anchors": ["v2/buffer.go: write, read, setbit, readbit, flipbit, seek, seekbit, alignbit, alignbyte"]}
{"id": "C68", "title": "The generator's result does not depend on map order", "statement": "For every directory, the files after a run of the generator are the same whatever the order in which Go visits the maps of sources and outputs, and a flag other than complex writes nothing.", "quantifier": "every directory with distinct names, every visiting order", "why_tests_cant": "map iteration order is random per run", "anchors": ["generation/main.go: main", "generation/complex.go: GenerateComplex"]}
{"id": "C69", "title": "v1 Buffer agrees with v2", "statement": "Every v1 Buffer method that v2 also has performs the same steps (reads, writes, locking, panics) as the v2 method, for bit counts above zero and, for the methods over the whole buffer, on a buffer that is not empty; the constructors are the same.", "quantifier": "every method, state and argument", "why_tests_cant": "two code bases compared over all inputs and interleavings", "anchors": ["v1/buffer.go", "v2/buffer.go"]}
{"id": "C70", "title": "v1 treats non-positive bit counts as none", "statement": "In v1, ReadBits and SetBits with n <= 0 return (0) without touching anything, the Next variants only move the bit offset by n, and ClearAllBits, SetAllBits and FlipAllBits on an empty buffer do nothing.", "quantifier": "every offset, value, state and non-positive n", "why_tests_cant": "all non-positive values", "anchors": ["v1/buffer.go: readbits, setbits, clearallbits, setallbits, flipallbits"]}
{"id": "C71", "title": "v1 Complex calls agree with the typed calls of v2", "statement": "v1 WriteComplex of 16-, 32- or 64-bit integers has the outcome of the v2 typed write (bytes, panic, mutex), and v1 ReadComplex inside the buffer returns what the v2 typed read returns.", "quantifier": "every state, offset, list of integers, width and order", "why_tests_cant": "two code bases compared over all inputs", "anchors": ["v1/buffer.go: writeComplex, readComplex", "v2/buffer.go: writeU*, readU*"]}
{"id": "C72", "title": "v1 Buffer under concurrency", "statement": "In every interleaving of v1 Buffer calls at most one goroutine is inside a locked section and only it changes memory and fields; whenever the mutex is free the state is that of the sections one after another; calls with one locked section are linearizable.", "quantifier": "every schedule, any number of goroutines and calls", "why_tests_cant": "exponentially many schedules", "anchors": ["v1/buffer.go"]}
{"id": "C73", "title": "v1 operations release the lock", "statement": "After any v1 Buffer method call that returns or panics, the mutex is free.", "quantifier": "every operation, state and argument", "why_tests_cant": "a stuck mutex needs a particular panic inside the locked region", "anchors": ["v1/buffer.go: write, writeComplex, grow"]}
{"id": "C74", "title": "v1 ReadComplexNext and WriteComplexNext move by the bytes transferred", "statement": "ReadComplexNext and WriteComplexNext are the positioned calls at the byte offset followed, on success only, by a move of the offset by count times integer size.", "quantifier": "every state, data, count, size and order", "why_tests_cant": "all inputs", "anchors": ["v1/buffer.go: ReadComplexNext, WriteComplexNext"]}
{"id": "C75", "title": "v1 ReadComplex is atomic", "statement": "Concurrent positioned v1 WriteComplex and ReadComplex calls return what they return one after another in some order, so a read never sees half of a write.", "quantifier": "every schedule", "why_tests_cant": "a torn read shows up only under specific schedules", "anchors": ["v1/buffer.go: readComplex, read"]}
{"id": "C76", "title": "v2 MiniBuffer agrees with v3", "statement": "Every v2 MiniBuffer method except WriteBytes, WriteBytesNext, Grow and Reset, and the constructor, does exactly what the v3 MiniBuffer method of the same name does; WriteBytes at an offset inside the buffer stores the same bytes (for sources that do not start before the destination in the same array) but panics when not all fit; WriteBytesNext likewise, and it advances as in v3 when all fit; Reset and Grow give the same length, offsets and capacities, v2 with fresh or zeroed memory.", "quantifier": "every method, state, argument and previous content of the result variable", "why_tests_cant": "two code bases compared over all inputs", "anchors": ["v2/minibuf.go", "v3/minibuf.generated.go"]}
{"id": "C77", "title": "v1 MiniBuffer agrees with v2", "statement": "Every v1 MiniBuffer method that v2 also has does exactly what the v2 method does, for bit counts above zero and, for the methods over the whole buffer, on a buffer that is not empty; otherwise v1 does nothing.", "quantifier": "every method, state, argument and previous content of the result variable", "why_tests_cant": "two code bases compared over all inputs", "anchors": ["v1/minibuf.go", "v2/minibuf.go"]}
{"id": "C78", "title": "Every v2 Buffer history follows a reference machine", "statement": "For any sequence of v2 Buffer calls by one goroutine, with arbitrary arguments and panics recovered, the results and the final content, capacities, offsets and state of the mutex are those of a small reference machine over a byte list, spare bytes and two cursors; from the constructor on the cached capacities are always right and nothing outside the backing window changes.", "quantifier": "every finite call sequence with arbitrary arguments, overlapping sources included", "why_tests_cant": "requires an invariant over all histories", "anchors": ["v2/buffer.go: all methods"]}
{"id": "C79", "title": "Every v2 MiniBuffer history follows a reference machine", "statement": "For any sequence of v2 MiniBuffer calls, with arbitrary arguments and previous contents of the result variables, the results and the final state are those of a small reference machine; from the constructor on the cached capacities are always right and nothing outside the backing window changes.", "quantifier": "every finite call sequence, arbitrary arguments and result variables", "why_tests_cant": "requires an invariant over all histories", "anchors": ["v2/minibuf.go: all methods"]}
{"id": "C80", "title": "v1 MiniBuffer Complex calls agree with the typed calls of v2", "statement": "v1 MiniBuffer.WriteComplex of 16-, 32- or 64-bit integers does exactly what the v2 typed write does, also when not all of them fit; ReadComplex of a positive number of integers inside the buffer stores what the v2 typed read stores; the Next variants are the positioned calls followed, on success only, by a move of the offset by count times size.", "quantifier": "every state, offset, list of integers, width and order, every previous content of the result variable", "why_tests_cant": "two code bases compared over all inputs", "anchors": ["v1/minibuf.go: writeComplex, readComplex, ReadComplexNext, WriteComplexNext", "v2/minibuf.go: writeU*, readU*"]}
{"id": "C81", "title": "The text of v3 Buffer computes what the model computes", "statement": "The committed text of v3/buffer.generated.go, parsed and run by an interpreter for the part of Go it uses, gives for every method and the constructor the same result, panic and state as the functions the other properties are about.", "quantifier": "every public method, argument and state, any number of loop rounds", "why_tests_cant": "it relates the properties proved of a transcription to the text itself", "anchors": ["v3/buffer.generated.go"]}
{"id": "C82", "title": "The text of v3 MiniBuffer computes what the model computes", "statement": "The committed text of v3/minibuf.generated.go, parsed and run by the same interpreter, gives for every method and the constructor the same contents of the result variable, panic and state as the functions the other properties are about.", "quantifier": "every public method, argument, state and previous content of the result variable", "why_tests_cant": "it relates the properties proved of a transcription to the text itself", "anchors": ["v3/minibuf.generated.go"]}
{"id": "C83", "title": "Every v3 Buffer history run from the text follows a reference machine", "statement": "For any sequence of Buffer calls with arbitrary arguments, run from the text of v3/buffer.generated.go, the results, panics and final content, capacities and offsets are those of the small reference machine of C38.", "quantifier": "every finite sequence of calls", "why_tests_cant": "requires reasoning about all histories", "anchors": ["v3/buffer.generated.go"]}
{"id": "C84", "title": "The text of v2 MiniBuffer computes what the model computes", "statement": "The committed texts of v2/minibuf.go and v2/utils.go, parsed and run by the same interpreter, give for every method and the constructor, and for every history of calls, the same contents of the result variable, panic and state as the functions the other properties are about.", "quantifier": "every public method, argument, state, previous content of the result variable and finite history", "why_tests_cant": "it relates the properties proved of a transcription to the text itself", "anchors": ["v2/minibuf.go", "v2/utils.go"]}
{"id": "C85", "title": "The text of v1 MiniBuffer computes what the model computes", "statement": "The committed texts of v1/minibuf.go and v1/utils.go, parsed and run by the same interpreter, give for every method and the constructor the same contents of the result variable, panic and state as the functions the other properties are about.", "quantifier": "every public method, argument, state and previous content of the result variable", "why_tests_cant": "it relates the properties proved of a transcription to the text itself", "anchors": ["v1/minibuf.go", "v1/utils.go"]}
{"id": "C86", "title": "The text of v2 Buffer computes what the model computes", "statement": "The committed texts of v2/buffer.go and v2/utils.go, parsed and run by the same interpreter as sequences of atomic steps, give for every method and the constructor exactly the steps, results and panics of the model; so goroutines that run the text do what goroutines of the model do, exclude each other as in C52 and are linearizable as in C67.", "quantifier": "every public method and argument, every state, every schedule, any number of goroutines", "why_tests_cant": "it relates the properties proved of a transcription to the text itself, under all schedules", "anchors": ["v2/buffer.go", "v2/utils.go"]}
{"id": "C87", "title": "The text of v1 Buffer computes what the model computes", "statement": "The committed texts of v1/buffer.go and v1/utils.go, parsed and run by the same interpreter as sequences of atomic steps, give for every method, the Complex ones included, and the constructor exactly the steps, results and panics of the model; so goroutines that run the text exclude each other and are linearizable as in C72, and a ReadComplex that decodes after releasing the mutex can return half of a concurrent write as in C75.", "quantifier": "every public method and argument, every state, every schedule, any number of goroutines", "why_tests_cant": "it relates the properties proved of a transcription to the text itself, under all schedules", "anchors": ["v1/buffer.go", "v1/utils.go"]}
{"id": "C88", "title": "The example programs, for any data", "statement": "On a new empty buffer grown to the size of any sequence of typed messages, writing the messages with the Next writers succeeds, Bytes is then exactly their encoding, and after SeekByte(0,false) the Next readers return every message; the same with WriteBytesNext of any bytes. This holds of the functions and of the text of v3/buffer.generated.go.", "quantifier": "every sequence of messages of any types, orders and values (and every byte string) that fits in memory, every initial memory", "why_tests_cant": "the examples run one literal each", "anchors": ["examples/floating-point/main.go: main", "examples/signed-integers/main.go: main", "examples/helloworld/main.go: main"]}
{"id": "C89", "title": "Errors and constants come from their texts", "statement": "The texts of v1/errors.go, v2/errors.go and v3/errors.go, parsed, declare exactly the error values by name that the model and the interpreter of the buffer files use, and the text of their method Error formats every error value as the model does; v1/crunch.go declares exactly the integer sizes that name resolution knows.", "quantifier": "every name, every error value with any scope and message", "why_tests_cant": "it relates tables of the model to the text itself", "anchors": ["v1/errors.go", "v2/errors.go", "v3/errors.go", "v1/crunch.go"]}
{"id": "C90", "title": "Calls on a shared Buffer finish", "statement": "Goroutines calling v2 (or v1) Buffer methods neither deadlock nor livelock: unless a call has ended by a panic inside its locked section, somebody in a call can always step; calls in progress cannot step forever; so they can be finished. Calls other than writes and Grow never end inside their sections, and after one that does nothing ever changes again.", "quantifier": "every schedule, any number of goroutines and calls", "why_tests_cant": "a deadlock needs a particular schedule and panic", "anchors": ["v2/buffer.go", "v1/buffer.go"]}
{"id": "C91", "title": "No data races on a shared Buffer", "statement": "Goroutines calling v2 (or v1) Buffer methods never get into a state where one is about to write a field, the slice header or a byte and another is about to access the same place.", "quantifier": "every schedule, any number of goroutines and calls", "why_tests_cant": "the race detector sees the schedules it happens to run", "anchors": ["v2/buffer.go", "v1/buffer.go"]}
{"id": "C92", "title": "Capacities of a shared Buffer", "statement": "Whenever the mutex is free the byte capacity is at most the length of the content, the bit capacity is eight times the byte capacity and the slice fits its array; unless somebody is in Grow the buffer is then well-formed (the capacities are those of the content), and so it is whenever nobody is in a call. In the middle of Grow the capacity can be smaller than the content.", "quantifier": "every schedule, any number of goroutines and calls", "why_tests_cant": "the window in Grow is a few instructions wide", "anchors": ["v2/buffer.go: grow, refresh, reset", "v1/buffer.go: grow, refresh"]}
{"id": "C93", "title": "Failures of calls on a shared Buffer", "statement": "Calls check their range before they take the mutex. Whatever calls run at once, one whose range is inside the content the buffer started with returns normally; one whose arguments do not take the arithmetic of the checks by surprise returns or fails with an error of the library, never with a run-time panic; the first call that leaves the mutex locked is a write or Grow whose arguments do; if all writes are of that kind and nobody grows the buffer, the calls in progress can always be finished. False for v2 because of Reset, which makes the content shorter between a check and a write; proved for all other calls, and for all calls of v1.", "quantifier": "every schedule, any number of goroutines and calls, any arguments", "why_tests_cant": "the window between a check and the section is a few instructions wide", "anchors": ["v2/buffer.go: write*, read*, readbit*, setbit*, flipbit, reset, grow", "v1/buffer.go: WriteComplex, ReadComplex, write, read, readbit*, setbit*, flipbit, grow"]}
{"id": "C94", "title": "Every v1 Buffer history follows a reference machine", "statement": "For any sequence of v1 Buffer calls by one goroutine, with arbitrary arguments (also integer sizes that are none, values of the wrong dynamic type and no byte order) and panics recovered, the results and the final content, capacities, offsets and state of the mutex are those of a small reference machine over a byte list, spare bytes and two cursors; what ReadComplex returns has the dynamic type of the size asked for; from the constructor on the cached capacities are always right and nothing outside the backing window changes.", "quantifier": "every finite call sequence with arbitrary arguments", "why_tests_cant": "requires an invariant over all histories; the arguments are interface values", "anchors": ["v1/buffer.go: all methods"]}
{"id": "C95", "title": "Every v1 MiniBuffer history follows a reference machine", "statement": "For any sequence of v1 MiniBuffer calls, with arbitrary arguments and previous contents of the result variables, the results and the final state are those of a small reference machine; what ReadComplex stores has the dynamic type of the size asked for; from the constructor on the cached capacities are always right and nothing outside the backing window changes.", "quantifier": "every finite call sequence, arbitrary arguments and result variables", "why_tests_cant": "requires an invariant over all histories; the arguments are interface values", "anchors": ["v1/minibuf.go: all methods"]}
{"id": "C96", "title": "Every history run from the text follows a reference machine", "statement": "For any sequence of calls on a v3 MiniBuffer, a v2 Buffer or MiniBuffer or a v1 Buffer or MiniBuffer, with arbitrary arguments, panics recovered and each call run by the interpreter from the committed text, the results, panics, final content, cursors and (for the Buffers) the state of the mutex are those of the reference machines of C64, C78, C79, C94 and C95, and the cached capacities are right at the end.", "quantifier": "every finite sequence of calls, arbitrary arguments and result variables", "why_tests_cant": "requires reasoning about all histories of the text itself", "anchors": ["v3/minibuf.generated.go", "v2/buffer.go", "v2/minibuf.go", "v2/utils.go", "v1/buffer.go", "v1/minibuf.go", "v1/utils.go"]}
{"id": "C97", "title": "Goroutines that run the text of the shared Buffers", "statement": "What C90 to C93 say of progress, data races, capacities and failures holds of goroutines whose calls are run by the interpreter from the committed texts of v2/buffer.go and v1/buffer.go: no deadlock or livelock unless a call ends inside its section, never two writers, capacities that are those of the content whenever nobody is in Grow and the mutex is free, calls in range that return; and the races and the failure after Reset found there are in the text.", "quantifier": "every schedule, any number of goroutines and calls, any arguments", "why_tests_cant": "it relates the properties proved of a transcription to the text itself, under all schedules", "anchors": ["v2/buffer.go", "v1/buffer.go", "v2/utils.go", "v1/utils.go"]}
{"id": "C98", "title": "On a fair schedule every call on a shared Buffer finishes", "statement": "When the scheduler is fair - a goroutine that could go on with its call again and again does take steps again and again, which for the mutex means that it is not always given to others - every call that is started on a shared v2 or v1 Buffer finishes, as long as no call ends by a panic inside its locked section; in particular when there are no writes and no Grow, and when writes have decent arguments (as in C93) and nobody calls Grow or, in v2, Reset. The same holds of calls run from the text. Without fairness a call can wait for ever while other calls keep finishing.", "quantifier": "every infinite fair schedule, any number of goroutines and calls, any arguments", "why_tests_cant": "a liveness property of infinite schedules: a test run is finite and its schedule is the runtime's", "anchors": ["v2/buffer.go", "v1/buffer.go"]}
{"id": "C99", "title": "The text of the generator does what its model does", "statement": "The text of generation/complex.go, parsed and run by an interpreter of the part of Go it uses, with any map of files, always ends, returns that map and no error, and has replaced every file by what the model of the generator makes of it: line by line, directives by their accessors or by a comment that names the first wrong argument. The order in which Go visits the map decides only the order of the console messages, which are determined as well. On the texts of v3/_buffer.go and v3/_minibuf.go it gives exactly the tokens of the two committed generated files.", "quantifier": "every map of files with any contents, every map order, every state the function is called in", "why_tests_cant": "it relates a transcription of the generator to its text, for inputs of any size", "anchors": ["generation/complex.go: GenerateComplex"]}
{"id": "C100", "title": "The generator ends and changes nothing but outputs", "statement": "The text of the generator (generation/main.go and generation/complex.go, parsed and run by an interpreter), started in any directory of any file system, ends without a panic whatever the operating system refuses. Every file that differs afterwards is named like a listed source without its underscore and with .generated.go for .go; no file disappears and none gets shorter.", "quantifier": "every file system, directory listing, contents and map order, every failure of every call of the operating system at every time", "why_tests_cant": "it quantifies over all failures of the operating system and all contents", "anchors": ["generation/main.go: main, init", "generation/complex.go: GenerateComplex"]}
{"id": "C101", "title": "The text of main does what its model does", "statement": "When nothing fails, a run of the text of the generator leaves at each output exactly what the source becomes line by line, followed by what the file held beyond that length, and the run is a run of the model of main that C62 and C68 are about.", "quantifier": "every file system, directory, listing with distinct names, contents and map order", "why_tests_cant": "it relates a transcription of main to its text, for inputs of any size", "anchors": ["generation/main.go: main"]}
{"id": "C102", "title": "What the generator leaves when files fail", "statement": "When the operating system refuses to open, read, create or write files at any time, each output is either unchanged, because its source or it could not be opened, or has at its start the output, or the part of it that could be written, of the source, or of the part of it that could be read. Each such failure is reported by a line that begins with '! '.", "quantifier": "every file system, listing and map order, every failure of every call at every time", "why_tests_cant": "needs fault injection at every call and every number of bytes", "anchors": ["generation/main.go: main"]}
{"id": "C103", "title": "The generator works in the directory it was given", "statement": "Only files of the directory on the command line change.", "quantifier": "every file system and every failure of the operating system", "why_tests_cant": "needs a directory that can be opened but not entered", "anchors": ["generation/main.go: main"]}
{"id": "C104", "title": "The generator closes every file it opens", "statement": "When the program returns every file it has opened is closed.", "quantifier": "every file system and every failure of the operating system", "why_tests_cant": "needs fault injection in the middle of a read or write", "anchors": ["generation/main.go: main"]}
{"id": "C105", "title": "A silent run of the generator is a successful one", "statement": "If no line that begins with '! ' was printed, the directory was listed completely and every source in it has its complete output beside it.", "quantifier": "every file system and every failure of the operating system", "why_tests_cant": "it is about all failures at once: none may be swallowed", "anchors": ["generation/main.go: main"]}
{"id": "C106", "title": "Refused directives are reported", "statement": "If no line that begins with '! ' was printed, all five arguments of every directive of every source of the directory are allowed, so no accessor is silently missing from the output.", "quantifier": "every file system, sources with any contents, every failure of the operating system", "why_tests_cant": "it quantifies over all sources", "anchors": ["generation/complex.go: GenerateComplex", "generation/main.go: main"]}
{"id": "C107", "title": "ReadBits and SetBits on a shared Buffer are sequences of single-bit calls", "statement": "Goroutines calling ReadBits and SetBits at given positions and any methods with a single locked section, in any interleaving: the single-bit calls those two are made of and the other calls have an order, agreeing with time, in which executed alone one after another they have the same outcomes and leave the same memory. A whole ReadBits is not atomic: it can return half of what a concurrent SetBits stores.", "quantifier": "every schedule, any number of goroutines, calls and bits; v2 and v1", "why_tests_cant": "a torn read needs a particular schedule; the order has to exist for all of them", "anchors": ["v2/buffer.go: readbits, setbits", "v1/buffer.go: readbits, setbits"]}
{"id": "C108", "title": "Goroutines using different bits of a shared Buffer do not interfere", "statement": "Goroutines call positioned Buffer methods (in v2 typed reads and writes, WriteBytes, WriteByte and the bit methods; in v1 WriteComplex, WriteBytes, WriteByte and the bit methods) within the length of the buffer, and nobody touches a bit that another changes - different bits of one byte count as different. Then in every interleaving each gets exactly the results it would get alone; and when nobody is running every changed bit is as the goroutine that changes it would have left it alone, while unchanged bits, the fields, the mutex and all other memory are as before.", "quantifier": "every schedule, any number of goroutines and calls, every buffer, any positions; v2 and v1", "why_tests_cant": "interference through a shared byte shows in few interleavings", "anchors": ["v2/buffer.go", "v1/buffer.go"]}
{"id": "C109", "title": "A Next call on a shared Buffer is a look, the call at the position seen, and a move", "statement": "Goroutines calling any v2 Buffer methods but ReadByte, ReadByteNext, Grow, Refresh and Reset (in v1 also but ReadComplex and ReadComplexNext of integers wider than a byte), in any interleaving: each Next call is an Offset or BitOffset, the positioned call of the same name at the position that returned, and a relative seek by the number of bytes or bits transferred (none of the rest if one panics); all these parts, and the single-bit calls of ReadBits and SetBits, have an order, agreeing with time, in which executed alone one after another they have the same outcomes and leave the same state. So the interleavings of those parts are all that can go wrong between concurrent Next calls.", "quantifier": "every schedule, any number of goroutines and calls, any arguments; v2 and v1", "why_tests_cant": "the order has to exist for all schedules, offsets read without the mutex included", "anchors": ["v2/buffer.go: *Next, seek, seekbit, Offset, BitOffset", "v1/buffer.go: *Next, seek, seekbit, Offset, BitOffset"]}
{"id": "C110", "title": "Next calls are atomic when each offset is used by one goroutine", "statement": "Goroutines call v2 Buffer methods (all but ReadByte, ReadByteNext, ReadBits, SetBits and their Next variants, Grow, Refresh and Reset; in v1 also but ReadComplex and ReadComplexNext of integers wider than a byte), and each of the two offsets is used by one goroutine at most - positioned calls use none, the byte-level Next calls, Seek, Offset and After the byte offset, the bit-level ones the bit offset, the alignments both. Then in every interleaving whole calls, Next calls included, have the same outcomes as executed alone in the order in which they first take the mutex (or end, if they never do), and leave the same memory, fields and mutex. So one goroutine can append, or read on, while others work at positions.", "quantifier": "every schedule, any number of goroutines and calls, any arguments, any assignment of offsets to goroutines; v2 and v1", "why_tests_cant": "what C54 refutes for a shared offset has to be shown impossible for all interleavings otherwise", "anchors": ["v2/buffer.go", "v1/buffer.go"]}
{"id": "C111", "title": "Parts of calls, owned offsets and different bits, for goroutines that run the text", "statement": "C108, C109 and C110 hold of goroutines that run the text of v2/buffer.go and v1/buffer.go, parsed and interpreted step by step: whole calls are atomic when each offset has one user, and goroutines that use different bits get from the text what the text would give them alone; in both cases the sequential execution compared with also runs the text. An execution of the text is one of the model with results written as Go values, and that one is explained by looks, positioned calls and moves.", "quantifier": "every schedule, any number of goroutines and calls, any fuel over 2^64 and depth of at least 4; v2 and v1", "why_tests_cant": "the model could differ from the text in some interleaving only", "anchors": ["v2/buffer.go", "v1/buffer.go", "v2/utils.go", "v1/utils.go"]}
{"id": "C112", "title": "What goroutines get from a shared Buffer is what the reference machine answers", "statement": "Goroutines make v2 or v1 Buffer calls with a single locked section, or (each offset having one user) Next calls as in C110, in any interleaving, with argument slices that exist at the start. When all have returned, and no write has ended with a run-time panic, the reference machine of C78 and C94, given the calls in the order in which they took the mutex, answers each call with the outcome its goroutine got - a returned slice being looked at when its call is over in that order - and ends with the bytes and offsets of the buffer; the mutex is free.", "quantifier": "every schedule that ends, any number of goroutines and calls, every buffer, any arguments; v2 and v1", "why_tests_cant": "the answers have to fit one order of the calls, for all interleavings", "anchors": ["v2/buffer.go", "v1/buffer.go"]}
{"id": "C113", "title": "A call accesses only its footprint", "statement": "For every v2 and v1 Buffer call except Grow (and v2 Reset), the places it may read and the places it may change are given by a short table from its documentation: the bytes it is about, the slice it copies from, the offset a Next, Seek or Align method uses, and always the slice header and the capacities for reading. Run from any state whose capacities fit the content, with the mutex free or taken, whether it returns or panics, the call reads and changes no other place, makes no array, and releases the mutex only if it is taken. Hence every other place is as before, and two states that are the same where the call may read give the same outcome. ReadComplex of v1 may look at bytes behind the content; nothing else does.", "quantifier": "every call with any arguments, every buffer state, mutex free or taken; v2 and v1", "why_tests_cant": "an access outside of the table shows only in some states and for some positions", "anchors": ["v2/buffer.go", "v1/buffer.go"]}
{"id": "C114", "title": "Goroutines with separate footprints do not notice one another", "statement": "Goroutines make any v2 or v1 Buffer calls except Grow (and v2 Reset), in any interleaving of single steps, and no goroutine changes a place that another one accesses, according to the footprints of its calls made alone. Then every call returns or panics as it would if its goroutine were alone; a goroutine between calls finds each place the others do not change as it would alone; what nobody changes is as before; the mutex is taken at the end only if some goroutine alone would leave it taken; and nobody races. This includes Next calls of a goroutine that owns the offset, and ReadByte and ReadComplex, which look at the content without the mutex. For calls with positions the footprints can be taken from the start.", "quantifier": "every schedule, any number of goroutines and calls, every buffer, any arguments; v2 and v1", "why_tests_cant": "the steps of the calls interleave in unboundedly many ways", "anchors": ["v2/buffer.go", "v1/buffer.go"]}
{"id": "C115", "title": "Goroutines that only read do not notice one another", "statement": "Goroutines make v2 or v1 Buffer calls that read at given positions or ask for offsets and capacities, in any interleaving of single steps. Nothing is changed, every finished call has the outcome it has as the only call, nobody races, and the mutex is taken at the end only if one of the calls, as the only one, would leave it taken.", "quantifier": "every schedule, any number of goroutines and calls, every buffer, any arguments; v2 and v1", "why_tests_cant": "ReadByte and ReadComplex look at the content without the mutex", "anchors": ["v2/buffer.go", "v1/buffer.go"]}
{"id": "C116", "title": "Footprints, separation and readers, for the text", "statement": "C113, C114 and C115 hold of the text of v2/buffer.go and v1/buffer.go, parsed and interpreted step by step: a call of the text accesses only its footprint, goroutines that run the text with separate footprints get and leave what the text would give them alone, and goroutines that only read get what a single call of the text gives.", "quantifier": "every schedule, any number of goroutines and calls, any fuel over 2^64 and depth of at least 4; v2 and v1", "why_tests_cant": "the model could differ from the text in one access", "anchors": ["v2/buffer.go", "v1/buffer.go", "v2/utils.go", "v1/utils.go"]}
{"id": "C117", "title": "A call of a shared Buffer that is not disturbed does what it does alone", "statement": "A call during which no other goroutine changes a place the call may read, Grow and v2 Reset excepted, returns what it returns alone at its start, and leaves those places as it leaves them alone, though the other goroutines run all the while and may change any other place. ReadByte, which loads its byte after releasing the mutex, returns what a call made alone at one moment between its start and its end returns, provided no other goroutine changes the capacity or which memory is the content. Both hold of the text of the files.", "quantifier": "every schedule, any number of goroutines and calls, every reachable well-formed state; v2 and v1, model and text", "why_tests_cant": "which steps of the others disturb a call depends on the schedule", "anchors": ["v2/buffer.go", "v1/buffer.go", "v2/buffer.go: ReadByte", "v1/buffer.go: ReadByte, readComplex"]}
{"id": "C118", "title": "Calls that look outside their section are linearizable with the others", "statement": "ReadByte loads its byte after releasing the mutex; Offset, BitOffset, After and AfterBit look at an offset without the mutex; Refresh assigns the capacities. Together with the calls that have one section (positioned reads and writes, single-bit and whole-buffer bit calls, seeks, aligns, Bytes and the capacities) they are linearizable: the calls can be put in one order, which keeps a call that ended before another was started in front of it, such that executed one at a time they have the same outcomes and leave the same state. So a ReadByte that loads between two stores of a write still has a place in the order. v1 ReadComplex of integers of more than a byte is not among them.", "quantifier": "every schedule, any number of goroutines and calls, every well-formed buffer at rest, writes whose ranges do not overflow; v2 and v1, model and text", "why_tests_cant": "a byte is loaded in the middle of another goroutine's section only under specific schedules", "anchors": ["v2/buffer.go: ReadByte, Offset, BitOffset, After, AfterBit, Refresh", "v1/buffer.go: ReadByte, Offset, BitOffset, After, AfterBit, Refresh"]}
{"id": "C119", "title": "No data races in the sense of the Go memory model", "statement": "In an execution of goroutines that call methods of a shared v2 (or v1) Buffer, two accesses of different goroutines to the same field, slice header or byte, one of which changes it, are ordered by happens-before (program order, and an unlock before a later lock), however far apart they are in the execution.", "quantifier": "every schedule, any number of goroutines and calls; v2 and v1, model and text", "why_tests_cant": "the race detector sees the schedules it happens to run", "anchors": ["v2/buffer.go", "v1/buffer.go"]}
{"id": "C120", "title": "Single steps of the buffers without a mutex", "statement": "Every public method of the v3 Buffer and of the v1, v2 and v3 MiniBuffers, executed from its text in single steps (one access to a field, to the slice header or to a byte, one copy, append or allocation at a time), has when nothing else runs the outcome of the model and leaves the state of the model.", "quantifier": "every call with arguments that Go can have, every state", "why_tests_cant": "tests call methods on a few buffers and do not see the order of the accesses", "anchors": ["v3/buffer.generated.go", "v3/minibuf.generated.go", "v2/minibuf.go", "v1/minibuf.go"]}
{"id": "C121", "title": "Data races on buffers without a mutex", "statement": "Goroutines call methods of one shared v3 Buffer (or v1, v2, v3 MiniBuffer), executed from the text in single steps. A data race (happens-before of the Go memory model) is about a field, the slice header or the bytes, which the one call changes and the other one accesses, by a table of what each method changes and accesses. So goroutines whose calls do not change what the others access are in no data race; goroutines that only look get the outcomes of the model at the start, and change nothing. For each field, the header and the bytes there are calls that are in a data race; two ReadByteNext can return the same byte and move the offset once; a ReadBit can panic with an index out of range after its check.", "quantifier": "every schedule, any number of goroutines and calls, any arguments", "why_tests_cant": "the tests have no goroutines, and the race detector sees only the schedules that happen", "anchors": ["v3/buffer.generated.go", "v3/minibuf.generated.go", "v2/minibuf.go", "v1/minibuf.go"]}
{"id": "C122", "title": "Buffers without a mutex, guarded by the client", "statement": "Any number of goroutines share one v3 Buffer (or v1, v2, v3 MiniBuffer), and each makes its calls, executed from the text in single steps, only with a mutex of the client locked: any number of calls per locked section, each chosen by the outcomes of the calls before, with panics recovered from or passed on. Then all sections have the outcomes they have one after another in the order of the locks, with each call doing what the model says, the buffer is left so, there is no data race, and nobody waits for ever. In particular no update is lost when goroutines add one to a byte; without the mutex one can be.", "quantifier": "every schedule, any number of goroutines, sections and calls, any client code", "why_tests_cant": "the tests have no goroutines", "anchors": ["v3/buffer.generated.go", "v3/minibuf.generated.go", "v2/minibuf.go", "v1/minibuf.go"]}
{"id": "C123", "title": "Goroutines that use different parts of a buffer without a mutex do not notice one another", "statement": "Goroutines share a v3 Buffer (or a v1, v2 or v3 MiniBuffer) without a mutex, each call executed from the text in single steps in any interleaving. No call copies or makes memory (WriteBytes, WriteByte, Grow, Reset, in v1 WriteComplex), and no call of one goroutine changes a part (a field, the slice header, the bytes) that a call of another one accesses, by the tables of C121. Then every call has the outcome the model gives it when its goroutine is the only one; between its calls a goroutine finds every part that the others do not change as if it were the only one; and what nobody changes is as before.", "quantifier": "every schedule, any number of goroutines and calls, any arguments, every buffer", "why_tests_cant": "the interleavings of single accesses cannot be enumerated", "anchors": ["v3/buffer.generated.go", "v3/minibuf.generated.go", "v2/minibuf.go", "v1/minibuf.go"]}
{"id": "C124", "title": "Goroutines that use different bytes of a v3 buffer without a mutex do not notice one another", "statement": "For every call on a v3 Buffer or MiniBuffer that makes no new array and leaves the content where it is, a short table from its documentation gives the bytes of the content it may read and change, beside the fields and the header of the tables of C121. Executed from the text in single steps, the call accesses nothing else, from any state, whether it returns or panics. Hence it leaves every other place as it is and depends only on what it may read. Goroutines that share such a buffer without a mutex, none of which changes a place another one accesses in the footprints of its calls made alone, do not notice one another: every call has the outcome the model gives it when its goroutine is the only one, each goroutine finds the places the others do not change as if it were the only one, what nobody changes is as before, and there is no data race. For calls with positions it is enough that they are about different bytes; different bits of one byte are not enough.", "quantifier": "every schedule, any number of goroutines and calls, any arguments, every buffer", "why_tests_cant": "the interleavings of single accesses cannot be enumerated, and an access outside of the table shows only in some states", "anchors": ["v3/buffer.generated.go", "v3/minibuf.generated.go"]}
{"id": "C125", "title": "Goroutines that use different bytes of a v2 MiniBuffer without a mutex do not notice one another", "statement": "As C124 for the v2 MiniBuffer. For every call that makes no new array and leaves the content where it is, a short table from its documentation gives the bytes of the content it may read and change. Executed from the text of v2/minibuf.go in single steps, the call accesses nothing else beside the parts in the table of C121, from any state, whether it returns or panics. Hence it leaves every other place as it is and depends only on what it may read. Goroutines none of which changes a place another one accesses, in the footprints of its calls made alone, do not notice one another and are in no data race. For calls with positions it is enough that they are about different bytes.", "quantifier": "every schedule, any number of goroutines and calls, any arguments, every buffer", "why_tests_cant": "the interleavings of single accesses cannot be enumerated, and an access outside of the table shows only in some states", "anchors": ["v2/minibuf.go"]}
{"id": "C126", "title": "Goroutines that use different bytes of a v1 MiniBuffer without a mutex do not notice one another", "statement": "As C124 for the v1 MiniBuffer. For every call that makes no new array and leaves the content where it is, a short table gives the bytes of the content it may read and change; ReadComplex may also read behind the content, in the capacity of the slice, and WriteComplex reads a byte slice given to it. Executed from the text of v1/minibuf.go in single steps, the call accesses nothing else beside the parts in the table of C121, from any state, whether it returns or panics. Hence it leaves every other place as it is and depends only on what it may read. Goroutines none of which changes a place another one accesses, in the footprints of its calls made alone, do not notice one another and are in no data race. For calls with positions it is enough that they are about different bytes.", "quantifier": "every schedule, any number of goroutines and calls, any arguments, every buffer", "why_tests_cant": "the interleavings of single accesses cannot be enumerated, and an access outside of the table shows only in some states", "anchors": ["v1/minibuf.go"]}
{"id": "C127", "title": "Calls with positions on a shared v3 buffer race exactly when they are about a common byte that one of them changes", "statement": "The converse of C124. For every byte of the content that a successful call with a position on a v3 Buffer or MiniBuffer is about, by the table of C124, the byte matters to the call: a call that changes bytes changes this one unless it already holds what the call leaves there, and a call that only reads has different results for two values of the byte. Two goroutines that make two such calls without a mutex, executed from the text in single steps, can be in a data race exactly when some byte of the content is one that both calls are about and one of the calls changes bytes. Not covered: ReadBits of more than 64 bits, whose result does not hold all of them; the negative bit positions that a MiniBuffer accepts; and WriteBytes from a part of the buffer itself. The race is found from the given state up to the value of one byte of the content.", "quantifier": "every buffer, any two calls with positions that succeed, any arguments, every schedule", "why_tests_cant": "a race detector reports a race only in schedules that were run, and it can not tell that no schedule has one", "anchors": ["v3/buffer.generated.go", "v3/minibuf.generated.go"]}
{"id": "C128", "title": "Calls with positions on a shared v2 or v1 MiniBuffer race exactly when they are about a common byte that one of them changes", "statement": "The converse of C125 and C126. For every byte of the content that a successful call with a position on a v2 or v1 MiniBuffer is about, the byte matters to the call: a call that changes bytes changes this one unless it already holds what the call leaves there, and a call that only reads has different results for two values of the byte. Two goroutines that make two such calls without a mutex, executed from the text in single steps, can be in a data race exactly when some byte of the content is one that both calls are about and one of the calls changes bytes. In v1 a ReadBits or SetBits of no bits is about no byte, so it races with nothing, and ReadComplex may read bytes behind the content, which no call with a position changes. Not covered: ReadBits of more than 64 bits; negative bit positions; and sources that are a part of the buffer itself. The race is found from the given state up to the value of one byte of the content.", "quantifier": "every buffer, any two calls with positions that succeed, any arguments, every schedule", "why_tests_cant": "a race detector reports a race only in schedules that were run, and it can not tell that no schedule has one", "anchors": ["v2/minibuf.go", "v1/minibuf.go"]}
{"id": "C129", "title": "Which calls on a shared v2 or v1 Buffer can be in a data race, exactly", "statement": "The tables of C119 are exact. Two calls made by two goroutines on a shared v2 or v1 Buffer clash if one of them changes a field or the slice header that the other one reads without the mutex, or a byte of the content that the other one reads without the mutex; only ReadByte and, in v1, ReadComplex of numbers wider than a byte read bytes without it. From any state of a buffer, two calls can be in a data race (no happens-before between a change and another access of one place) only if they clash. If both calls made alone succeed and they clash, some schedule has the race, from this very state. Both hold for the model and for goroutines that run the text of the methods.", "quantifier": "every buffer, any two calls with any arguments, every schedule", "why_tests_cant": "a race detector reports a race only in schedules that were run, and it can not tell that no schedule has one", "anchors": ["v2/buffer.go", "v1/buffer.go"]}
{"id": "C130", "title": "What goroutines running the text get from a shared Buffer is what the reference machine answers", "statement": "C112 for the text. Goroutines run the methods of v2/buffer.go or v1/buffer.go, parsed and interpreted in single steps, in any interleaving; the calls have a single locked section, or are Next calls on an offset that only one goroutine uses; their argument slices exist at the start. When all have returned, and no write has ended with a run-time panic, the Go value or panic each goroutine got from each call is the answer of the reference machine of C78 and C94 for the calls in the order in which they took the mutex, a returned slice being looked at when its call is over in that order. The machine ends with the bytes and offsets of the buffer, and the mutex is free.", "quantifier": "every schedule that ends, any number of goroutines and calls, every buffer, any arguments, any fuel over 2^64 and depth of at least 4; v2 and v1", "why_tests_cant": "the answers have to fit one order of the calls, for all interleavings of single accesses of the text", "anchors": ["v2/buffer.go", "v1/buffer.go", "v2/utils.go", "v1/utils.go"]}
{"id": "C131", "title": "Buffers that share no bytes can be used by the goroutines of one program as if each were the only one", "statement": "Any number of v2 or v1 Buffers, each with its own fields and mutex, in one memory, and goroutines that call methods of any of them in any interleaving; the methods are those that make no new array (all but Grow, and Reset in v2). No element of one buffer is in reach of another one or in an argument of a call on another one; the buffers may lie in one array. Then the steps on one buffer are an execution of goroutines that share only this buffer, with the same calls, the same outcomes, and in the end the same fields, mutex and bytes, so that everything known about one buffer holds of each; bytes in no buffer do not change. If moreover the calls have a single locked section, or are Next calls on an offset of their buffer that only one goroutine uses, then when all have returned there is one order of all calls on all buffers, each at a moment between its beginning and its end, in which the calls made one at a time have the same outcomes and leave the same fields, mutexes and memory. Both hold for the model and for goroutines that run the text. Two buffers over the same bytes do not behave so: two FlipBit calls can flip a bit once.", "quantifier": "every schedule, any number of buffers, goroutines and calls, any arguments", "why_tests_cant": "the interleavings on several buffers cannot be enumerated, and an access to a foreign byte shows only in some of them", "anchors": ["v2/buffer.go", "v1/buffer.go"]}
{"id": "C132", "title": "What is written through one buffer type of one version is read through any type of any version", "statement": "A list of non-empty messages (unsigned integers of 16, 32 or 64 bits, little or big endian), each written with the typed Next method of any of the six buffer types (Buffer and MiniBuffer of v1, v2, v3), where each message may use another one, leaves at the offset the encodings of the integers one after the other, and moves the offset by their size. A buffer with these bytes at its offset, anywhere, gives back the messages when they are read with the typed Next methods of any of the six types, again a different one for each message if one likes, whatever the variables handed to a MiniBuffer contain; the bytes may also be read divided into messages differently. Reading changes only the offset. All this also holds when the calls are made by running the texts of the six files.", "quantifier": "every list of messages, every assignment of buffer types to the writes and to the reads, every state and offset at which the messages fit", "why_tests_cant": "the tests of each version write and read with that version only, and only a few fixed values", "anchors": ["v1/buffer.go", "v1/minibuf.go", "v2/buffer.go", "v2/minibuf.go", "v3/buffer.generated.go", "v3/minibuf.generated.go"]}
{"id": "C133", "title": "A program that uses a v3 Buffer prints what it prints on the reference machine; the example programs print what they are meant to", "statement": "Take any program of the form of the examples: it makes a buffer with NewBuffer(), calls its methods with constant arguments in any number and order, and prints results with fmt.Println, as they are or converted to a string. Run from the text of v3/buffer.generated.go, in any memory, it prints what it prints when the calls are made on the reference machine of C38, and ends as it ends there: normally, or with the same panic after the same output. In particular the texts of the three programs under examples, parsed and run, print 'hello, world'; the bytes of -42 and 69 in little-endian order, then '[-42 69]'; the bytes of 69, -21, -42.42 and 3.621 rounded to the nearest float64, in big-endian order, then these four numbers (how fmt writes a floating-point number is a parameter).", "quantifier": "every program of that form, every memory, every way to print floating-point numbers", "why_tests_cant": "the examples are not tested at all, and a test would fix one program and one memory", "anchors": ["examples/helloworld/main.go", "examples/signed-integers/main.go", "examples/floating-point/main.go", "v3/buffer.generated.go"]}
{"id": "C134", "title": "The tests of the project pass, whatever append allocates ahead", "statement": "Each of the 366 test functions in buffer_test.go, minibuf_test.go and errors_test.go of v1, v2 and v3 is parsed from its text, and its calls are run from the texts of the package. Whatever policy append has for allocating ahead, the test passes: it comes to its end without t.Fatalf, or, with a deferred panicChecker, a call panics with the error that the checker expects. Any test of the form of those in errors_test.go passes exactly if it names an error value of the package and expects 'crunch: ', its scope, ': ' and its message.", "quantifier": "every test function of the nine files, every test of an error value, every policy of append (any function of the old capacity and the length needed)", "why_tests_cant": "a run of the tests sees one policy of one Go release; the policy decides which calls reallocate and which slices share memory", "anchors": ["v1/buffer_test.go", "v1/minibuf_test.go", "v2/buffer_test.go", "v2/minibuf_test.go", "v3/buffer_test.go", "v3/minibuf_test.go", "v1/errors_test.go", "v2/errors_test.go", "v3/errors_test.go"]}
{"id": "C135", "title": "Who can see the room behind the bytes of a Buffer", "statement": "Take two Buffers that show the same: bytes, offsets and capacities. Between the end of the bytes and the end of the slice's capacity they may hold different bytes, and different numbers of them. The same history of calls on both gives the same results and leaves them showing the same: in v2 always; in v3 if that room holds only zeros, no bytes other than zeros are given up by TruncateRight or Reset, and memory does not run out; in v1 if no ReadComplex asks for integers that reach beyond the bytes. Both conditions are needed: any byte other than zero in the room of a v3 Buffer is shown by Grow, and any ReadComplex that reaches beyond the bytes of a v1 Buffer tells whether there is room. The room of a Buffer that NewBuffer makes of several slices is zeros, so a program that makes its Buffers this way and keeps to the conditions cannot tell what append allocates ahead. The same holds for histories run from the texts.", "quantifier": "all pairs of well-formed states, all histories of calls of one goroutine, all policies of append (any function of the old capacity and the length needed)", "why_tests_cant": "a run sees one policy of append and one content of the room; that no history can tell two of them apart is a statement about pairs of runs", "anchors": ["v3/buffer.generated.go", "v2/buffer.go", "v1/buffer.go", "v1/utils.go", "v2/utils.go"]}
{"id": "C136", "title": "Who can see the room behind the bytes of a MiniBuffer", "statement": "Take two MiniBuffers that show the same: bytes, offsets and capacities. Between the end of the bytes and the end of the slice's capacity they may hold different bytes, and different numbers of them. The same history of calls on both gives the same results and leaves them showing the same, if ReadBytes (and in v1 ReadComplex) keeps to the bytes; in v3 also the room must hold only zeros, TruncateRight must get no negative number, no bytes other than zeros may be given up by TruncateRight, by Grow of a negative number or by Reset, and memory must not run out. A ReadBytes beyond the bytes does show the room, in every version: it returns the bytes there, and panics on a MiniBuffer that does not have them. A program that makes a MiniBuffer of several slices and keeps to these conditions cannot tell what append allocates ahead. The same holds for histories run from the texts.", "quantifier": "all pairs of well-formed states, all histories of calls with arbitrary result variables, all policies of append (any function of the old capacity and the length needed)", "why_tests_cant": "a run sees one policy of append and one content of the room; that no history can tell two of them apart is a statement about pairs of runs", "anchors": ["v3/minibuf.generated.go", "v2/minibuf.go", "v1/minibuf.go", "v1/utils.go", "v2/utils.go"]}
{"id": "C137", "title": "The benchmarks of the project come to their end, for every b.N", "statement": "Each of the 32 benchmark functions of buffers in buffer_test.go and minibuf_test.go of v1, v2 and v3 is parsed from its text, and its calls are run from the texts of the package. For every number of rounds b.N, and whatever policy append has for allocating ahead, the benchmark comes to its end: no call panics, and no call waits for a mutex that an earlier round has left locked. The loops that Grow and Reset the same buffer do not let it grow without bound.", "quantifier": "every benchmark function of buffers in the six files, every b.N, every policy of append (any function of the old capacity and the length needed)", "why_tests_cant": "go test chooses b.N by the time a round takes; a run has finitely many rounds, and a benchmark that only fails after more of them, as one with WriteBytesNext would, is not noticed", "anchors": ["v1/buffer_test.go", "v1/minibuf_test.go", "v2/buffer_test.go", "v2/minibuf_test.go", "v3/buffer_test.go", "v3/minibuf_test.go", "v1/errors_test.go", "v2/errors_test.go", "v3/errors_test.go"]}
{"id": "C138", "title": "The constants in programs and tests have the values that Go gives them", "statement": "An integer constant of the example programs and the tests, as the interpreter takes it, has exactly its value, and no value if its type cannot hold it. A floating-point constant has the sign of its value and otherwise the pattern of the finite number that is nearest to it, of two nearest numbers the even one; it has none exactly if it is at least half way from the largest finite number to the next power of two. So for every number of bits of fraction and exponent, and in particular for float32 and float64.", "quantifier": "all constants (any sign, any number of digits before and after the point), all formats with at least one bit of fraction and two of exponent", "why_tests_cant": "the tests and examples hold a few constants, and a test cannot compare with all the other floating-point numbers", "anchors": ["examples/floating-point/main.go", "examples/signed-integers/main.go", "v3/buffer_test.go"]}
{"id": "C139", "title": "Bit fields written through one buffer type of one version are read through any type of any version", "statement": "Run from the texts of the source files: bit fields of width 1 or more that fit, each written with SetBitsNext through any of the six buffer types, put their bits one after the other at the bit offset, most significant first, move the bit offset by their number and change nothing else. Every buffer with these bits at its bit offset gives back the value of each field modulo two to its width with ReadBitsNext through any of the six types, also if the bits are divided into fields in another way, and reading changes only the bit offset.", "quantifier": "all lists of fields (any number, value, width and type, mixed), all buffers, all bit offsets where they fit", "why_tests_cant": "the tests write or read single bits and fields of one type, never with one version what another one wrote", "anchors": ["v1/buffer.go", "v1/minibuf.go", "v2/buffer.go", "v2/minibuf.go", "v3/buffer.generated.go", "v3/minibuf.generated.go"]}
{"id": "C140", "title": "The six buffer types can be exchanged call by call", "statement": "Run from the texts of the source files: take any list of calls that all versions have (integers of several sizes and byte orders, bytes, bits, bit fields, whole-buffer bit operations, seeking, aligning, After, Refresh, Bytes, capacities and offsets), each made through any of the six buffer types on one and the same buffer. If the calls succeed when they are all made through the v3 Buffer, they succeed whichever type each is made through, the caller sees the same results, and bytes, room behind them and both offsets are the same at the end; no call changes memory outside the buffer. Bit counts must be positive, SetBit gets 0 or 1, bytes to write are at least one byte of another array, the result variables of MiniBuffers have room for the integers to read or hold zero for bits; Grow and Reset are left out.", "quantifier": "all lists of such calls (any length, arguments and types, mixed), all buffers, all contents of the result variables", "why_tests_cant": "the tests use one type of one version each and never compare two of them", "anchors": ["v1/buffer.go", "v1/minibuf.go", "v2/buffer.go", "v2/minibuf.go", "v3/buffer.generated.go", "v3/minibuf.generated.go"]}
{"id": "C141", "title": "With only zeros behind the bytes the six buffer types can be exchanged call by call, Grow included", "statement": "Run from the texts of the source files: take any buffer with only zeros in the room behind its bytes, and any list of the calls that all versions have, Grow now among them, each made through any of the six buffer types on that one buffer. If no call panics where there is always memory and Grow adds zeros, then all calls succeed, with these results, these bytes and these offsets, whichever types they go through, or one of them is a Grow that would need more than half of all memory there can be. Two lists of the same calls through other types end with the same bytes, offsets and capacities.", "quantifier": "all lists of such calls (any length, arguments and types, mixed), all buffers with zeros behind their bytes, all contents of the result variables, whatever append allocates ahead", "why_tests_cant": "the tests grow a few small buffers, each through one type of one version; v1 and v2 grow with append, v3 reslices the room or copies into twice the space", "anchors": ["v1/buffer.go", "v1/minibuf.go", "v2/buffer.go", "v2/minibuf.go", "v3/buffer.generated.go", "v3/minibuf.generated.go"]}
{"id": "C142", "title": "Which methods of the six buffer types reject exactly what the v3 Buffer rejects", "statement": "Run from the texts of the source files: all methods that the versions share, of the v2 and v3 Buffers; of the v1 Buffer all but the reads of integers and the three whole-buffer bit operations; of the MiniBuffers all that do not deal with bits at a position and do not read bytes, for v3 without the writes of bytes as well, and for v1 without the reads of integers and the whole-buffer operations, are strict: a list of calls through strict methods of any types, mixed, succeeds if and only if the same calls succeed on v3 Buffers only, with the same results, bytes, room and offsets. No other method is: for each of them there are a buffer and arguments that it takes and the v3 Buffer rejects with a panic.", "quantifier": "all lists of calls through strict methods (any length, arguments and types, mixed) and all buffers; all methods that are not strict", "why_tests_cant": "the tests compare no two types, and only a few calls that are rejected", "anchors": ["v1/buffer.go", "v1/minibuf.go", "v2/buffer.go", "v2/minibuf.go", "v3/buffer.generated.go", "v3/minibuf.generated.go"]}
{"id": "C143", "title": "The Buffers of all versions report the same errors and go on in the same way", "statement": "Run from the texts of the source files: take any list of the calls that all versions have on one buffer, each through the Buffer of any version (for v1 without the reads of integers and the whole-buffer bit operations), each panic recovered by the caller. If on v3 Buffers no call ends in a panic of the Go runtime, then whichever versions the calls go through, none leaves the mutex taken, each call gives the same result or panics with an error of the same text, and bytes, room and offsets end the same. So a rejected call does the same to the buffer in all versions.", "quantifier": "all lists of such calls (any length, arguments and versions, mixed, any of them rejected), all buffers", "why_tests_cant": "the tests recover a panic and end there; none goes on with the buffer, and none compares two versions", "anchors": ["v1/buffer.go", "v2/buffer.go", "v3/buffer.generated.go"]}
{"id": "C144", "title": "The MiniBuffers of all versions agree in every outcome, but for three kinds of methods", "statement": "Run from the texts of the source files: take any list of the calls that the MiniBuffers of all versions have on one buffer, each through the MiniBuffer of any version, except WriteBytes of v3, and the reads of integers and the three whole-buffer bit operations of v1; each panic is recovered by the caller. Whichever versions they go through, each call gives the same result or the same panic, and bytes, room and offsets end the same, also where a write is stored in part before the panic or a read goes beyond the bytes. The exceptions are needed: for each of these methods there are a buffer and arguments with which it succeeds while the same method of the v2 MiniBuffer panics.", "quantifier": "all lists of such calls (any length, arguments and versions, mixed, any of them out of range), all buffers; all methods that are excepted", "why_tests_cant": "the tests never pass a MiniBuffer a position out of range and compare no two versions", "anchors": ["v1/minibuf.go", "v2/minibuf.go", "v3/minibuf.generated.go"]}
{"id": "C145", "title": "Buffers of any types that share bytes see each other's writes at once and keep their own offsets", "statement": "Run from the texts of the source files: take any number of buffers of the six types in one memory, over any slices, the same, overlapping or apart, and any list of the calls that all versions have but Grow and Reset, each on one of the buffers and through any type, where the bytes to write may be bytes of other buffers in other arrays. Keep all bytes once and two offsets per buffer. If no call panics in that bookkeeping on v3 Buffers, all calls succeed with its results, all bytes of memory end as there, and each buffer has its own offsets and its slice. So lists that succeed with v3 Buffers succeed with any types, with the same results, bytes and offsets.", "quantifier": "all families of buffers (any number, any slices, any overlap), all lists of such calls on them (any length, arguments and types, mixed)", "why_tests_cant": "the tests make one buffer over each slice and never look at its bytes through another one", "anchors": ["v1/buffer.go", "v1/minibuf.go", "v2/buffer.go", "v2/minibuf.go", "v3/buffer.generated.go", "v3/minibuf.generated.go"]}
{"id": "C146", "title": "Buffers of any types that share bytes give the same results and panics whichever version they are of", "statement": "Run from the texts of the source files: take any number of buffers of the six types in one memory, over any slices, the same, overlapping or apart, and any list of calls on them by the methods on which the Buffers (C143) or the MiniBuffers (C144) of all versions agree, each panic recovered by the caller. Keep all bytes once and two offsets per buffer. If that bookkeeping ends no call on a Buffer in a panic of the Go runtime, then no mutex is left taken, each call gives the result or the panic of the bookkeeping, and all bytes of memory and all offsets end as there, also where a MiniBuffer stores a part of its argument before it panics and another buffer shows that part. So Buffers can be exchanged for Buffers and MiniBuffers for MiniBuffers of any version, with the same results, panics, bytes and offsets.", "quantifier": "all families of buffers (any number, any slices, any overlap), all lists of such calls on them (any length, arguments and versions, mixed, any of them rejected)", "why_tests_cant": "the tests make one buffer over each slice, end with the first panic and compare no two versions", "anchors": ["v1/buffer.go", "v1/minibuf.go", "v2/buffer.go", "v2/minibuf.go", "v3/buffer.generated.go", "v3/minibuf.generated.go"]}
