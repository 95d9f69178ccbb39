Run the model on the HPACK stories:

    cp /verif/tools/conformance/Stories.lean.txt /tmp/Stories.lean
    cd /verif/lean && lake build Verif.Hpack.Decoder
    for d in /repo/hpack/fixtures/*/; do echo -n "$(basename $d): "; lake env lean --run /tmp/Stories.lean $d*.json; done

Result (Lean 4.33.0): every line ends in `0 bad`; 446 files, 47142 cases, 548382 headers.
