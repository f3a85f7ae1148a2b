.lake/
*.olean
*.ilean
lake-manifest.json
