cd /verif/lean
(for d in Model Spec Proof Props; do for f in Verif/$d/*.lean; do m=${f%.lean}; echo "import ${m//\//.}"; done; done) > Verif.lean
